/-
C69: texts of sections put one after the other.
-/
import Verif.Proof.Concat
import Verif.Props.Endings
import Verif.Props.Sections

namespace Osu
open SB Ev Parser

theorem parseLines_app {E α : Type} (f : Str → Res E α) {a : Str} (ha : a.getLast? ≠ some '\r') (b : Str) :
    parseLines f (a ++ '\n' :: b) = oneAfter (a.count '\n' + 1) (parseLines f a) (parseLines f b) := by
  have h : parseLines f (a ++ ['\n']) = parseLines f a := by
    unfold parseLines
    rcases lines_final_any ha with h | h <;> rw [h]
    exact lineLoop_snoc_blank f _ _
  rw [← h]
  unfold parseLines
  rw [lines_append, lineLoop_app, lines_fed _ a (Nat.le_refl _), Nat.zero_add]

section
variable {D : Type} [DecLib D]

/-- Timing points of two texts one after the other. -/
theorem C69_timing_points (v : Nat) {a : Str} (ha : a.getLast? ≠ some '\r') (b : Str) :
    (TimingPoints.parse v (a ++ '\n' :: b) : Res (LErr TPErr) (List (TimingPoint D))) =
      oneAfter (a.count '\n' + 1) (TimingPoints.parse v a) (TimingPoints.parse v b) := parseLines_app _ ha b

/-- The same for hit objects. -/
theorem C69_hit_objects (v : Nat) {a : Str} (ha : a.getLast? ≠ some '\r') (b : Str) :
    (HitObjects.parse v (a ++ '\n' :: b) : Res (LErr HOErr) (List (HitObject D))) =
      oneAfter (a.count '\n' + 1) (HitObjects.parse v a) (HitObjects.parse v b) := parseLines_app _ ha b

/-- The same for colours, in the versions that have them. -/
theorem C69_colours {v : Nat} (hv : 5 ≤ v) {a : Str} (ha : a.getLast? ≠ some '\r') (b : Str) :
    Colours.parse v (a ++ '\n' :: b) = (oneAfter (a.count '\n' + 1)
      (Colours.parse v a >>= fun l => .ok (l.getD [])) (Colours.parse v b >>= fun l => .ok (l.getD []))) >>= fun l => .ok (some l) := by
  have h : ¬(3 ≤ v ∧ v ≤ 4) := by omega
  unfold Colours.parse
  simp only [h, if_false, parseLines_app Colour.parse ha b]
  cases parseLines Colour.parse a <;> cases parseLines Colour.parse b <;> rfl

/-- The same for events, if the second text does not start with an indented line. -/
theorem C69_events [UniLib] (v : Nat) {a b : Str} (ha : a.getLast? ≠ some '\r') (hb : Flush b) :
    (Events.parse v (a ++ '\n' :: b) : Res (LErr EvErr) (List (Event D))) =
      oneAfter (a.count '\n' + 1) (Events.parse v a) (Events.parse v b) := by
  have h : (Events.parse v (a ++ ['\n']) : Res (LErr EvErr) (List (Event D))) = Events.parse v a := by
    unfold Events.parse Events.parseVars
    rcases lines_final_any ha with h | h <;> rw [h]
    exact evLoop_blank _ _ _ _ _
  rw [← h]
  unfold Events.parse Events.parseVars
  rw [lines_append, loop_append, lines_fed _ a (Nat.le_refl _), Nat.zero_add]
  cases loop v [] 0 ([] : List (Event D)) (lines (a ++ ['\n'])) with
  | err e => rfl
  | panic => rfl
  | ok evs =>
    have := loop_pre (v := v) (vars := []) (lines b) (a.count '\n' + 1) 0 evs [] (.inr hb)
    rw [List.append_nil, Nat.add_zero] at this
    exact this

/-- Fields of two texts one after the other: accepted exactly if both are and no key occurs in both; the values are
those of either. -/
theorem C69_fields (v : Nat) {a b : Str} {ks js : List Str} (ha : KeysOf a ks) (hne : ks ≠ [])
    (hb : ∀ c, b.head? = some c → isMultispace c = false) (hj : KeysOf b js) :
    (∀ h, (General D).fromStr v (a ++ '\n' :: b) = .ok h ↔ (∀ k ∈ ks, k ∉ js) ∧
      ∃ f g, (General D).fromStr v a = .ok f ∧ (General D).fromStr v b = .ok g ∧ h = fun k => (f k).or (g k)) ∧
    (∀ h, (Editor D).fromStr v (a ++ '\n' :: b) = .ok h ↔ (∀ k ∈ ks, k ∉ js) ∧
      ∃ f g, (Editor D).fromStr v a = .ok f ∧ (Editor D).fromStr v b = .ok g ∧ h = fun k => (f k).or (g k)) ∧
    (∀ h, Metadata.fromStr v (a ++ '\n' :: b) = .ok h ↔ (∀ k ∈ ks, k ∉ js) ∧
      ∃ f g, Metadata.fromStr v a = .ok f ∧ Metadata.fromStr v b = .ok g ∧ h = fun k => (f k).or (g k)) ∧
    (∀ h, (Difficulty D).fromStr v (a ++ '\n' :: b) = .ok h ↔ (∀ k ∈ ks, k ∉ js) ∧
      ∃ f g, (Difficulty D).fromStr v a = .ok f ∧ (Difficulty D).fromStr v b = .ok g ∧ h = fun k => (f k).or (g k)) := by
  have hb' : HeadNot isMultispace b := by
    intro c t e
    exact hb c (by rw [e]; rfl)
  exact ⟨fun h => Schema.fromStr_app (General_lawful D) v ha hne hb' hj h,
    fun h => Schema.fromStr_app (Editor_lawful D) v ha hne hb' hj h,
    fun h => Schema.fromStr_app Metadata_lawful v ha hne hb' hj h,
    fun h => Schema.fromStr_app (Difficulty_lawful D) v ha hne hb' hj h⟩

end

/-! ## Examples -/

section
attribute [local instance] asciiUni

/-- The error of the second text is placed below the first. -/
example : Colours.parse 14 (c!"Combo1 : 1,2,3\n\nCombo2 : 4,5,6" ++ '\n' :: c!"Combo3 : 1,2") =
    .err ⟨3, .rgb .missingBlue⟩ := by
  rw [C69_colours (by decide) (by decide)]
  decide

example : Flush c!"\n//a\n F,0,1,2,1" := by
  intro pre l post h hp hl
  have e : lines c!"\n//a\n F,0,1,2,1" = [c!"", c!"//a", c!" F,0,1,2,1"] := by decide
  rw [e] at h
  match pre, h with
  | [], h => cases h; exact absurd (by decide) hl
  | [_], h => cases h; decide
  | [_, x], h => cases h; exact absurd (hp c!"//a" (by simp)) (by decide)
  | _ :: _ :: _ :: _, h => simp at h

/-- An indented line at the start of the second text belongs to the last event of the first. -/
theorem C69_false_indented : ∃ a b : Str,
    (Events.parse 14 (a ++ '\n' :: b) : Res (LErr EvErr) (List (Event Dec96))).isOk = true ∧
    (Events.parse 14 b : Res (LErr EvErr) (List (Event Dec96))).isOk = false :=
  ⟨c!"0,0,a", c!" F,0,1,2,1", by rfl, by rfl⟩

/-- Keys of a text. -/
example : KeysOf c!"Mode: 1\n\nCountdown: 2" [c!"Mode", c!"Countdown"] := by
  obtain ⟨fs, h⟩ : ∃ fs, getColonFieldValueLines c!"Mode: 1\n\nCountdown: 2" = .ok [] fs ∧ fs.map FieldLine.name = [c!"Mode", c!"Countdown"] :=
    ⟨_, rfl, rfl⟩
  obtain ⟨es, h1, h2⟩ := getFields_iff.1 h.1
  exact ⟨es, h1, by rw [← h.2, h2, List.map_map]; rfl⟩

end

section
attribute [local instance] asciiUni

/-- The first text ends with an empty line; the error is in the second line of the second text. -/
example : (TimingPoints.parse 14 (c!"0,1,4,1,1,60\n" ++ '\n' :: c!"0,1,4,1,1,60\nx") : Res (LErr TPErr) (List (TimingPoint Dec96))) =
    oneAfter 2 (TimingPoints.parse 14 c!"0,1,4,1,1,60\n") (TimingPoints.parse 14 c!"0,1,4,1,1,60\nx") :=
  C69_timing_points 14 (by decide) _
example : (HitObjects.parse 14 (c!"1,2,3,1,0" ++ '\n' :: c!"4,5,6,1,0") : Res (LErr HOErr) (List (HitObject Dec96))) =
    oneAfter 1 (HitObjects.parse 14 c!"1,2,3,1,0") (HitObjects.parse 14 c!"4,5,6,1,0") := C69_hit_objects 14 (by decide) _

private theorem flushText : Flush c!"//a\n2,1,2" := by
  intro pre l post h hp hl
  have e : lines c!"//a\n2,1,2" = [c!"//a", c!"2,1,2"] := by decide
  rw [e] at h
  match pre, h with
  | [], h => cases h; decide
  | [x], h => cases h; exact absurd (hp c!"//a" (by simp)) (by decide)
  | _ :: _ :: _, h => simp at h

example : (Events.parse 14 (c!"0,0,a\n S,0,3,,1" ++ '\n' :: c!"//a\n2,1,2") : Res (LErr EvErr) (List (Event Dec96))) =
    oneAfter 2 (Events.parse 14 c!"0,0,a\n S,0,3,,1") (Events.parse 14 c!"//a\n2,1,2") := C69_events 14 (by decide) flushText

end

end Osu
