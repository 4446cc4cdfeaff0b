/-
C66: what the text of an error says.
-/
import Verif.Proof.Messages
import Verif.Props.Faults
import Verif.Props.File
import Verif.Props.Osb

namespace Osu
open SB Ev Parser

section
variable {D : Type} [DecLib D]

/-! ## The column that is named -/

/-- The text of the error of a timing point line names its first missing or unreadable column. -/
theorem C66_timing_point {v : Nat} {s p : Str} {qs : List Str} (hs : splitOnC ',' s = p :: qs) (m : Str) :
    (∃ e, (TimingPoint.parse v s : Res TPErr (TimingPoint D)) = .err e ∧ e.msg = m) ↔
      ¬TimeOverflows D v p ∧ firstFault (tpNamed v (qs.length + 1)) (p :: qs) = some m := by
  rw [tpNamed_eq, firstFault_map, Option.map_eq_some_iff]
  constructor
  · rintro ⟨e, h, rfl⟩
    exact ⟨((C56_line hs).1 h).1, e, ((C56_line hs).1 h).2, rfl⟩
  · rintro ⟨hn, e, h, rfl⟩
    exact ⟨e, (C56_line hs).2 ⟨hn, h⟩, rfl⟩

/-- The same for a hit object line. -/
theorem C66_hit_object {v : Nat} {s : Str} (m : Str) :
    (∃ e, (HitObject.parse v s : Res HOErr (HitObject D)) = .err e ∧ e.msg = m) ↔
      ¬HOPanics D v (splitOnC ',' s) ∧ hoSays D (splitOnC ',' s) = some m := by
  rw [hoSays_eq, Option.map_eq_some_iff]
  constructor
  · rintro ⟨e, h, rfl⟩
    exact ⟨(C59_line.1 h).1, e, (C59_line.1 h).2, rfl⟩
  · rintro ⟨hn, e, h, rfl⟩
    exact ⟨e, C59_line.2 ⟨hn, h⟩, rfl⟩

example : hoSays Dec96 (splitOnC ',' c!"1,2,3") = some c!"Missing `obj_type` field" :=
  ((C66_hit_object (v := 14) (s := c!"1,2,3") _).1 ⟨.missingObjType, by rfl, by decide⟩).2

/-- The same for a storyboard command. -/
theorem C66_command [UniLib] {s p : Str} {qs : List Str}
    (hs : splitOnC ',' (s.dropWhile fun c => c == ' ' || c == '_') = p :: qs) (m : Str) :
    (∃ e, (Command.parse s : Res CmdErr (Command D)) = .err e ∧ e.msg = m) ↔
      ¬CmdPanics (p :: qs) ∧ cmdSays p qs = some m := by
  rw [cmdSays_eq, Option.map_eq_some_iff]
  constructor
  · rintro ⟨e, h, rfl⟩
    exact ⟨((C57_line hs).1 h).1, e, ((C57_line hs).1 h).2, rfl⟩
  · rintro ⟨hn, e, h, rfl⟩
    exact ⟨e, (C57_line hs).2 ⟨hn, h⟩, rfl⟩

/-- The same for a line that should start an event. -/
theorem C66_event {v : Nat} {l p : Str} {qs : List Str} (hs : splitOnC ',' l = p :: qs) (m : Str) :
    (∃ e, (Ev.parseEvent v l : Res EvErr (Event D)) = .err e ∧ e.msg = m) ↔
      ¬EvPanics D v l ∧ evSays D p qs = some m := by
  rw [evSays_eq, Option.map_eq_some_iff]
  constructor
  · rintro ⟨e, h, rfl⟩
    exact ⟨((C58_line hs).1 h).1, e, ((C58_line hs).1 h).2, rfl⟩
  · rintro ⟨hn, e, h, rfl⟩
    exact ⟨e, (C58_line hs).2 ⟨hn, h⟩, rfl⟩

/-- The same for a colour. -/
theorem C66_colour {s : Str} (m : Str) : (∃ e, Colour.parse s = .err e ∧ e.msg = m) ↔ colourSays (trim s) = some m := by
  rw [colourSays_eq, Option.map_eq_some_iff]
  constructor
  · rintro ⟨e, h, rfl⟩
    exact ⟨e, C60_line.1 h, rfl⟩
  · rintro ⟨e, h, rfl⟩
    exact ⟨e, C60_line.2 h, rfl⟩

example : colourSays (trim c!"Combo1x: 1,2,3") = some c!"Invalid colon separator" :=
  (C66_colour _).1 ⟨.invalidColonSeparator, by rfl, by decide⟩

/-- In a section of an events list: the text for the first faulty line. -/
theorem C66_event_section [UniLib] {v : Nat} {s : Str} {e : LErr EvErr}
    (h : (Events.parse v s : Res (LErr EvErr) (List (Event D))) = .err e) :
    ∃ l p qs, ∃ evs : List (Event D), (lines s)[e.line]? = some l ∧
      ((indentOf l = 0 ∧ splitOnC ',' l = p :: qs ∧ evSays D p qs = some e.error.msg) ∨
       (1 ≤ indentOf l ∧ e.error.msg = c!"A storyboard command was used without defined sprite or animation sprite") ∨
       (1 ≤ indentOf l ∧ splitOnC ',' (l.dropWhile fun c => c == ' ' || c == '_') = p :: qs ∧
          cmdSays p qs = some e.error.msg) ∨
       (∃ n, n < indentOf l ∧ e.error.msg = c!"Invalid indentation, expected " ++ natToStr n ++ c!", got " ++ natToStr (indentOf l))) := by
  obtain ⟨k, e⟩ := e
  obtain ⟨pre, l, post, evs, hl, hk, -, -, -, hf⟩ := C58_section.1 h
  have hg : (lines s)[k]? = some l := by rw [hl, ← hk]; simp
  cases hf with
  | event h0 hc hp hf =>
    exact ⟨l, _, _, evs, hg, .inl ⟨h0, hp, by rw [evSays_eq, hf]; rfl⟩⟩
  | noOwner h0 _ => exact ⟨l, [], [], evs, hg, .inr (.inl ⟨h0, rfl⟩)⟩
  | command h0 _ _ hp hf => exact ⟨l, _, _, evs, hg, .inr (.inr (.inl ⟨h0, hp, by rw [cmdSays_eq, hf]; rfl⟩))⟩
  | @deep _ cs _ he hc hr hd =>
    refine ⟨l, [], [], evs, hg, .inr (.inr (.inr ⟨namedLevel cs, ?_, rfl⟩))⟩
    refine Nat.lt_of_le_of_lt ?_ hd
    have := maxLevel_pos _ (listing_levels cs)
    unfold maxLevel namedLevel at *
    cases hx : (SB.listing 1 cs).getLast? with
    | none => exact Nat.le_refl _
    | some x =>
      rw [hx] at this
      dsimp only at this ⊢
      split at this <;> rename_i hh <;> simp only [hh, if_true, if_false] <;> omega

end

/-! ## The text as a whole -/

/-- The text of an error of a file is a single line. -/
theorem C66_one_line (e : LErr FileErr) (input : Str) :
    '\n' ∉ e.shw FileErr.msg ∧ '\n' ∉ e.shwWithLine FileErr.msg input := by
  unfold LErr.shw LErr.shwWithLine
  have hl : '\n' ∉ (lines input)[e.line]?.getD [] := by
    cases h : (lines input)[e.line]? with
    | none => simp
    | some l => exact fun hc => absurd (lines_noLF input l (List.mem_of_getElem? h) '\n' hc) (by decide)
  simp only [List.mem_append, not_or]
  exact ⟨⟨⟨⟨by decide, natToStr_noLF _⟩, by decide⟩, e.error.msg_noLF⟩,
    ⟨⟨⟨⟨by decide, natToStr_noLF _⟩, by decide⟩, hl⟩, by decide⟩, e.error.msg_noLF⟩

example : '\n' ∉ (⟨3, .unexpectedLine⟩ : LErr FileErr).shwWithLine FileErr.msg c!"a\nb\nc\nd\ne" := (C66_one_line _ _).2

/-- The same for a storyboard file. -/
theorem C66_one_line_osb (e : LErr OsbErr) (input : Str) :
    '\n' ∉ e.shw OsbErr.msg ∧ '\n' ∉ e.shwWithLine OsbErr.msg input := by
  unfold LErr.shw LErr.shwWithLine
  have hl : '\n' ∉ (lines input)[e.line]?.getD [] := by
    cases h : (lines input)[e.line]? with
    | none => simp
    | some l => exact fun hc => absurd (lines_noLF input l (List.mem_of_getElem? h) '\n' hc) (by decide)
  simp only [List.mem_append, not_or]
  exact ⟨⟨⟨⟨by decide, natToStr_noLF _⟩, by decide⟩, e.error.msg_noLF⟩,
    ⟨⟨⟨⟨by decide, natToStr_noLF _⟩, by decide⟩, hl⟩, by decide⟩, e.error.msg_noLF⟩

example (e : OsbErr) : '\n' ∉ (⟨1, e⟩ : LErr OsbErr).shwWithLine OsbErr.msg c!"a\nb\nc" := (C66_one_line_osb _ _).2

/-- The line number and the text of the inner error can be read off the text. -/
theorem C66_recover {E F : Type} (f : E → Str) (g : F → Str) (a : LErr E) (b : LErr F) (h : a.shw f = b.shw g) :
    a.line = b.line ∧ f a.error = g b.error := by
  unfold LErr.shw at h
  simp only [List.append_assoc, List.cons_append, List.nil_append, List.cons.injEq, true_and] at h
  obtain ⟨h1, h2⟩ := digits_app_inj (c := ',') (by decide) (natToStr_digits _) (natToStr_digits _) h
  have := natToStr_inj h1
  simp only [List.cons.injEq, true_and] at h2
  exact ⟨by omega, h2⟩

/-- Within the errors of one kind of line different errors have different texts. -/
theorem C66_distinct :
    (∀ a b : TPErr, a.msg = b.msg → a = b) ∧ (∀ a b : HOErr, a.msg = b.msg → a = b) ∧
    (∀ a b : CmdErr, a.msg = b.msg → a = b) ∧ (∀ a b : ObjErr, a.msg = b.msg → a = b) ∧
    (∀ a b : NEErr, a.msg = b.msg → a = b) ∧ (∀ a b : NEErr, audioMsg a = audioMsg b → a = b) ∧
    (∀ a b : Osu.ColourErr, a.msg = b.msg → a = b) ∧ (∀ a b : PushErr, a.msg = b.msg → a = b) := by
  refine ⟨fun _ _ => TPErr.msg_inj, fun _ _ => HOErr.msg_inj, fun _ _ => CmdErr.msg_inj, fun _ _ => ObjErr.msg_inj,
    fun _ _ => NEErr.msg_inj, fun _ _ => audioMsg_inj, fun _ _ => ColourErr.msg_inj, ?_⟩
  rintro ⟨a, b⟩ ⟨c, d⟩ h
  unfold PushErr.msg at h
  simp only [List.append_assoc, List.cons_append, List.nil_append, List.cons.injEq, true_and] at h
  obtain ⟨h1, h2⟩ := digits_app_inj (c := ',') (by decide) (natToStr_digits _) (natToStr_digits _) h
  simp only [List.cons.injEq, true_and] at h2
  rw [natToStr_inj h1, natToStr_inj h2]

example : TPErr.msg .missingMeter ≠ TPErr.msg .missingEffects := fun h => absurd (C66_distinct.1 _ _ h) (by decide)

/-- Hence the text of an error in the timing points, colours or hit objects of a file tells the error and its line,
once the section is known. -/
theorem C66_known_section {a b : LErr FileErr} (h : a.shw FileErr.msg = b.shw FileErr.msg) :
    (∀ x y, a.error = .timingPoints x → b.error = .timingPoints y → a = b) ∧
    (∀ x y, a.error = .hitobjects x → b.error = .hitobjects y → a = b) ∧
    (∀ x y, a.error = .colours x → b.error = .colours y → a = b) := by
  obtain ⟨h1, h2⟩ := C66_recover _ _ _ _ h
  obtain ⟨k, e⟩ := a
  obtain ⟨k', e'⟩ := b
  dsimp only at h1 h2
  subst h1
  refine ⟨?_, ?_, ?_⟩ <;> rintro x y hx hy <;> dsimp only at hx hy <;> subst hx <;> subst hy
  · rw [TPErr.msg_inj h2]
  · rw [HOErr.msg_inj h2]
  · rw [ColourErr.msg_inj h2]

/-- Number problems of different fields of `General` share their texts. -/
theorem C66_false_distinct (e e' : IntErr) :
    generalMsg (.field (.zeroOne (.parseInt e))) = generalMsg (.field (.parseInt e)) ∧
    generalMsg (.field (.modeInt e)) = generalMsg (.field (.parseInt e)) ∧
    generalMsg (.field (.countdownInt e)) = generalMsg (.field (.countdownInt e')) := ⟨rfl, rfl, rfl⟩

section
attribute [local instance] asciiUni

/-- The text for a key that does not exist names the section. -/
example :
    (OsuFile.parse c!"osu file format v14\n[General]\nX:1" : Res _ (OsuFile Dec96)).toErr.map (LErr.shw FileErr.msg) =
      some c!"Line 3, The key doesn't exist in `General`" ∧
    (OsuFile.parse c!"osu file format v14\n[Editor]\nX:1" : Res _ (OsuFile Dec96)).toErr.map (LErr.shw FileErr.msg) =
      some c!"Line 3, The key doesn't exist in `Editor`" ∧
    (OsuFile.parse c!"osu file format v14\n[Difficulty]\nX:1" : Res _ (OsuFile Dec96)).toErr.map (LErr.shw FileErr.msg) =
      some c!"Line 3, The key doesn't exist in `Difficulty`" := by decide

/-- In `Metadata` it names `General`. -/
theorem C66_false_metadata :
    (OsuFile.parse c!"osu file format v14\n[Metadata]\nX:1" : Res _ (OsuFile Dec96)).toErr.map (LErr.shw FileErr.msg) =
      some c!"Line 3, The key doesn't exist in `General`" := by decide


example : firstFault (tpNamed 14 3) [c!"1", c!"2", c!"x"] = some c!"Invalid `meter` value" := by decide
example : ∃ e, (TimingPoint.parse 14 c!"1,2,x" : Res TPErr (TimingPoint Dec96)) = .err e ∧ e.msg = c!"Invalid `meter` value" :=
  (C66_timing_point (p := c!"1") (qs := [c!"2", c!"x"]) (by decide) _).2
    ⟨((C56_line (D := Dec96) (v := 14) (s := c!"1,2,x") (e := .invalidMeter) (p := c!"1") (qs := [c!"2", c!"x"]) (by decide)).1 (by decide)).1, by decide⟩
example : hoSays Dec96 [c!"1", c!"2", c!"3", c!"2", c!"0"] = some c!"Missing `curve_type` field" := by decide
example : cmdSays c!"M" [c!"0", c!"1", c!"2", c!"3"] = some c!"Missing `move_y` field" := by decide
example : evSays Dec96 c!"Sprite" [c!"Pass", c!"Nowhere"] = some c!"Invalid origin value" := by decide
example : colourSays c!"Combo1 : 1,2,256" = some c!"Invalid blue value" := by decide
example : (Events.parse 14 c!"0,0,a\n  F,0,1,2,1" : Res (LErr EvErr) (List (Event Dec96))).toErr.map (LErr.shw EvErr.msg) =
    some c!"Line 2, Invalid indentation, expected 1, got 2" := by rfl
example : (⟨1, .push ⟨1, 2⟩⟩ : LErr EvErr).shw EvErr.msg ≠ (⟨1, .push ⟨1, 3⟩⟩ : LErr EvErr).shw EvErr.msg := by decide

end

section
attribute [local instance] asciiUni

example : ∃ e, (Command.parse c!" M,0,1,2,3" : Res CmdErr (Command Dec96)) = .err e ∧ e.msg = c!"Missing `move_y` field" :=
  (C66_command (p := c!"M") (qs := [c!"0", c!"1", c!"2", c!"3"]) (by decide) _).2
    ⟨((C57_line (D := Dec96) (s := c!" M,0,1,2,3") (p := c!"M") (qs := [c!"0", c!"1", c!"2", c!"3"]) (e := .missingMoveY) (by decide)).1 (by rfl)).1, by decide⟩

example : ∃ e, (Ev.parseEvent 14 c!"Sprite,Pass,Nowhere" : Res EvErr (Event Dec96)) = .err e ∧ e.msg = c!"Invalid origin value" :=
  (C66_event (p := c!"Sprite") (qs := [c!"Pass", c!"Nowhere"]) (by decide) _).2
    ⟨((C58_line (D := Dec96) (v := 14) (l := c!"Sprite,Pass,Nowhere") (p := c!"Sprite") (qs := [c!"Pass", c!"Nowhere"])
      (e := .object .invalidOrigin) (by decide)).1 (by rfl)).1, by decide⟩

example (n m : Nat) (h : (⟨n, .missingMeter⟩ : LErr TPErr).shw TPErr.msg = (⟨m, .missingMeter⟩ : LErr TPErr).shw TPErr.msg) : n = m :=
  (C66_recover _ _ _ _ h).1

/-- A sprite with a command too far in. -/
example : ∃ l, (lines c!"0,0,a\n  F,0,1,2,1")[1]? = some l := by
  obtain ⟨l, p, qs, evs, h, -⟩ := C66_event_section (D := Dec96) (v := 14) (s := c!"0,0,a\n  F,0,1,2,1") (e := ⟨1, .push ⟨1, 2⟩⟩) (by rfl)
  exact ⟨l, h⟩


example (x y : TPErr) (h : (⟨3, .timingPoints x⟩ : LErr FileErr).shw FileErr.msg = (⟨3, .timingPoints y⟩ : LErr FileErr).shw FileErr.msg) : x = y := by
  have := (C66_known_section h).1 x y rfl rfl
  cases this
  rfl

end

end Osu
