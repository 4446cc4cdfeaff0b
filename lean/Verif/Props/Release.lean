/-
C87 (files in a build without overflow checks) and C88 (lists of continuing values in such a build).
-/
import Verif.Proof.Release
import Verif.Spec.Saving
import Verif.Props.Saving
import Verif.Props.Events
import Verif.Props.File
import Verif.Props.Storyboard

namespace Osu
open SB Ev

/-! ## C87: files -/

section
variable {D : Type} [DecLib D] [UniLib]

/-- C87: wherever reading a file with overflow checks does not panic, it has the same outcome without them. -/
theorem C87_agrees (s : Str) (h : (OsuFile.parse s : Res _ (OsuFile D)) ≠ .panic) :
    (OsuFile.parseR s : Res _ (OsuFile D)) = OsuFile.parse s :=
  (parse_agrees s).resolve_left h

end

section
attribute [local instance] asciiUni
example : (OsuFile.parseR c!"osu file format v4\n[Events]\n2,5,x" : Res _ (OsuFile Dec96)) = OsuFile.parse c!"osu file format v4\n[Events]\n2,5,x" :=
  C87_agrees _ (fun h => by
    have : (OsuFile.parse c!"osu file format v4\n[Events]\n2,5,x" : Res _ (OsuFile Dec96)).isErr = true := by decide
    rw [h] at this; cases this)
end

section
variable {D : Type} [DecLib D] [UniLib]

omit [UniLib] in
theorem shwEvent_moved (v : Nat) (vars : List Variable) (e : Event D) :
    Event.shwR v vars e = Event.shw (if v = 3 ∨ v = 4 then 5 else v) vars (moveEvent (-offsetOf v) e) := by
  have ht : ∀ t, timeToStr (if v = 3 ∨ v = 4 then 5 else v) t = some (i32ToStr t) := by
    intro t
    unfold timeToStr
    rw [if_neg (by split <;> omega)]
  cases e with
  | video e => simp only [Event.shwR, Event.shw, moveEvent, Video.shwCmdR, Video.shwCmd, ht, timeToStrR_eq, Option.map_some, Option.bind_some]
  | break_ e => simp [Event.shwR, Event.shw, moveEvent, Break.shwR, Break.shw, ht, timeToStrR_eq]
  | colourTransformation e =>
    simp only [Event.shwR, Event.shw, moveEvent, ColourTransformation.shwR, ColourTransformation.shw, ht, timeToStrR_eq, Option.map_some]
    by_cases h : v < 14
    · rw [if_pos h, if_pos (by split <;> omega)]
    · rw [if_neg h, if_neg (by split <;> omega)]
  | comment s => rfl
  | audioSample e => rfl
  | background e => rfl
  | spriteLegacy e => rfl
  | animationLegacy e => rfl
  | sampleLegacy e => rfl
  | object e => rfl

omit [UniLib] in
/-- C87: events are written as version 5, which does not move times, writes them with the times moved back; from version 5
on as with overflow checks. -/
theorem C87_events_written (v : Nat) (evs : List (Event D)) :
    Events.shwR v evs = Events.shw (if v = 3 ∨ v = 4 then 5 else v) (evs.map (moveEvent (-offsetOf v))) := by
  unfold Events.shwR Events.shw Events.shwVars
  congr 1
  induction evs with
  | nil => rfl
  | cons e evs ih => simp only [List.map_cons, List.mapM_cons, shwEvent_moved, ih]

example : Events.shwR 3 [(.break_ ⟨-2147483648, 24, true⟩ : Event Dec96), .video ⟨7, c!"a", none, [], true⟩] =
    some c!"2,2147483624,0\n1,-17,a" := by
  rw [C87_events_written]
  decide

omit [UniLib] in
/-- C87: writing events never panics. -/
theorem C87_events_saved (v : Nat) (evs : List (Event D)) : ∃ s, Events.shwR v evs = some s := by
  rw [C87_events_written]
  cases h : Events.shw (if v = 3 ∨ v = 4 then 5 else v) (evs.map (moveEvent (-offsetOf v))) with
  | some s => exact ⟨s, rfl⟩
  | none =>
    simp only [Events.shw, Events.shwVars, Option.map_eq_none_iff, mapM_none, C86_event] at h
    obtain ⟨x, -, hv, -⟩ := h
    exfalso
    split at hv <;> omega

example : ∃ s, Events.shwR 4 [(.break_ ⟨-2147483648, -2147483648, true⟩ : Event Dec96)] = some s := C87_events_saved _ _

omit [UniLib] in
theorem events_shw_agrees {v : Nat} {evs : List (Event D)} {s : Str} (h : Events.shw v evs = some s) : Events.shwR v evs = some s := by
  have key : ∀ {evs : List (Event D)} {l}, evs.mapM (Event.shw v []) = some l → evs.mapM (Event.shwR v []) = some l := by
    intro evs
    induction evs with
    | nil => intro l h; exact h
    | cons e evs ih =>
      intro l h
      simp only [List.mapM_cons, Option.bind_eq_bind, Option.bind_eq_some_iff] at h ⊢
      obtain ⟨a, ha, b, hb, e'⟩ := h
      refine ⟨a, ?_, b, ih hb, e'⟩
      cases e with
      | video e =>
        simp only [Event.shw, Video.shwCmd, Option.bind_eq_some_iff, Option.map_eq_some_iff] at ha
        obtain ⟨_, ⟨t, ht, rfl⟩, c, hc, rfl⟩ := ha
        simp only [Event.shwR, Video.shwCmdR, timeToStr_agrees ht, hc, Option.map_some]
      | break_ e =>
        simp only [Event.shw, Break.shw, Option.bind_eq_bind, Option.map_eq_some_iff, Option.bind_eq_some_iff] at ha
        obtain ⟨_, ⟨t, ht, u, hu, hw⟩, rfl⟩ := ha
        simp only [Option.some.injEq] at hw
        subst hw
        simp only [Event.shwR, Break.shwR, timeToStr_agrees ht, timeToStr_agrees hu]
      | colourTransformation e =>
        simp only [Event.shw, ColourTransformation.shw, Event.shwR, ColourTransformation.shwR] at ha ⊢
        split at ha
        · rename_i h14
          rw [if_pos h14]
          obtain ⟨t, ht, rfl⟩ := Option.map_eq_some_iff.1 ha
          rw [timeToStr_agrees ht]
        · rename_i h14
          rw [if_neg h14]; exact ha
      | comment s => exact ha
      | audioSample e => exact ha
      | background e => exact ha
      | spriteLegacy e => exact ha
      | animationLegacy e => exact ha
      | sampleLegacy e => exact ha
      | object e => exact ha
  unfold Events.shw Events.shwVars at h
  unfold Events.shwR
  obtain ⟨l, hl, rfl⟩ := Option.map_eq_some_iff.1 h
  rw [key hl]
  rfl

omit [UniLib] in
/-- C87: wherever saving a file with overflow checks does not panic, the same text is written without them. -/
theorem C87_agrees_saving {f : OsuFile D} {s : Str} (h : f.shw = some s) : f.shwR = some s := by
  have hp : ∀ {l}, pushSection c!"Events" f.events (fun x => (Events.shw f.version x).map some) = some l →
      pushSection c!"Events" f.events (fun x => (Events.shwR f.version x).map some) = some l := by
    intro l h
    cases he : f.events with
    | none => rw [he] at h; exact h
    | some evs =>
      rw [he] at h
      unfold pushSection at h ⊢
      simp only at h ⊢
      cases hs : Events.shw f.version evs with
      | none => rw [hs] at h; simp at h
      | some t => rw [hs] at h; rw [events_shw_agrees hs]; exact h
  unfold OsuFile.shw at h
  unfold OsuFile.shwR
  simp only [Option.bind_eq_bind, Option.bind_eq_some_iff] at h ⊢
  obtain ⟨a, ha, b, hb, c, hc, d, hd, e, he, g, hg, i, hi, j, hj, h⟩ := h
  exact ⟨a, ha, b, hb, c, hc, d, hd, e, hp he, g, hg, i, hi, j, hj, h⟩

example : (OsuFile.new 4 : OsuFile Dec96).shwR = some c!"osu file format v4\n\n" := C87_agrees_saving (by decide)

omit [UniLib] in
/-- C87: saving a file panics exactly if its version is 3 or 4 and there is a number in place of a time of a timing point
or hit object from which the decimal library cannot take 24. -/
theorem C87_saving_panics (f : OsuFile D) : f.shwR = none ↔
    (f.version = 3 ∨ f.version = 4) ∧ ∃ x ∈ fileClocks f, Stuck x := by
  have plain : ∀ {α : Type} (name : Str) (x : Option α) (g : α → Option Str), ∃ l, pushSection name x (fun x => some (g x)) = some l := by
    intro α name x g
    cases x <;> exact ⟨_, rfl⟩
  obtain ⟨a, ha⟩ := plain c!"General" f.general fun x => some ((General D).toStr f.version x)
  obtain ⟨b, hb⟩ := plain c!"Editor" f.editor fun x => some ((Editor D).toStr f.version x)
  obtain ⟨c, hc⟩ := plain c!"Metadata" f.metadata fun x => some (Metadata.toStr f.version x)
  obtain ⟨d, hd⟩ := plain c!"Difficulty" f.difficulty fun x => some ((Difficulty D).toStr f.version x)
  obtain ⟨e, he⟩ := plain c!"Colours" f.colours fun x => Colours.shw f.version x
  obtain ⟨g, hg⟩ : ∃ l, pushSection c!"Events" f.events (fun x => (Events.shwR f.version x).map some) = some l := by
    cases h : pushSection c!"Events" f.events (fun x => (Events.shwR f.version x).map some) with
    | some l => exact ⟨l, rfl⟩
    | none =>
      obtain ⟨x, -, hx⟩ := pushSection_none.1 h
      obtain ⟨s, hs⟩ := C87_events_saved f.version x
      rw [hs] at hx; cases hx
  -- the same file without events
  have key : f.shwR = none ↔ ({ f with events := none } : OsuFile D).shw = none := by
    unfold OsuFile.shwR OsuFile.shw
    have hn : pushSection c!"Events" (none : Option (List (Event D))) (fun x => (Events.shw f.version x).map some) = some [] := rfl
    simp only [ha, hb, hc, hd, he, hg, hn, Option.bind_eq_bind, Option.bind_some]
    cases pushSection c!"TimingPoints" f.timingPoints (fun x => (TimingPoints.shw f.version x).map some) <;>
    cases pushSection c!"HitObjects" f.hitobjects (fun x => (HitObjects.shw f.version x).map some) <;> simp
  rw [key, C86_file]
  simp only [fileMoments, fileClocks, Option.getD_none, List.flatMap_nil, List.not_mem_nil, false_and, exists_false, false_or]

example : ∃ s, (⟨3, none, none, none, none, none, some [.comment c!"x", .break_ ⟨-2147483648, 7, false⟩], none, none, none⟩ : OsuFile Dec96).shwR = some s := by
  refine Option.ne_none_iff_exists'.1 fun h => ?_
  obtain ⟨-, x, hx, -⟩ := (C87_saving_panics _).1 h
  simp [fileClocks] at hx

/-- C87: a line that begins an event is read as in version 5, which does not move times; then the times are moved by 24
in versions 3 and 4, going round at the ends of the 32 bit numbers. -/
theorem C87_line (v : Nat) (l : Str) : (parseEventR v l : Res EvErr (Event D)) = mapEv (moveEvent (offsetOf v)) id (parseEvent 5 l) :=
  parseEvent_moved v l

example : (parseEventR 4 c!"2,2147483640,7" : Res EvErr (Event Dec96)) = .ok (.break_ ⟨-2147483632, 31, true⟩) := by
  rw [C87_line]; rfl

/-- C87: the same for the whole section. -/
theorem C87_section (v : Nat) (s : Str) :
    (∀ evs : List (Event D), Events.parseR v s = .ok evs ↔ ∃ x, Events.parse 5 s = .ok x ∧ evs = x.map (moveEvent (offsetOf v))) ∧
    (∀ e, (Events.parseR v s : Res _ (List (Event D))) = .err e ↔ (Events.parse 5 s : Res _ (List (Event D))) = .err e) ∧
    ((Events.parseR v s : Res _ (List (Event D))) = .panic ↔ (Events.parse 5 s : Res _ (List (Event D))) = .panic) := by
  rw [events_moved]
  cases (Events.parse 5 s : Res _ (List (Event D))) with
  | ok x => simp [mapEv, eq_comm]
  | err e => simp [mapEv]
  | panic => simp [mapEv]

end

section
attribute [local instance] asciiUni
example : (Events.parseR 3 c!"//x\n2,2147483640,7" : Res _ (List (Event Dec96))) = .ok [.comment c!"x", .break_ ⟨-2147483632, 31, true⟩] :=
  ((C87_section 3 _).1 _).2 ⟨[.comment c!"x", .break_ ⟨2147483640, 7, true⟩], by rfl, by rfl⟩
end

section
variable {D : Type} [DecLib D] [UniLib]

theorem not_ignorable {pre : List Str} (h : ¬∀ l ∈ pre, Ignorable l) : ∃ a l b, pre = a ++ l :: b ∧ (∀ x ∈ a, Ignorable x) ∧ ¬Ignorable l := by
  cases hb : preBad 0 pre with
  | none => exact absurd (preBad_none.1 hb) h
  | some k =>
    obtain ⟨a, l, b, e, -, h1, h2⟩ := preBad_some.1 hb
    exact ⟨a, l, b, e, h1, h2⟩

/-- C87: a text is accepted exactly when it is a header with a known version, blank lines and comments, and sections with
different known names and accepted contents; other than with overflow checks the content of the last one may be empty. -/
theorem C87_exact (s : Str) (f : OsuFile D) :
    OsuFile.parseR s = .ok f ↔ ∃ ws num r pre xs rest, Versioned s ws num r ∧ KnownVersion num f.version ∧
      Layout r pre xs rest ∧ (∀ l ∈ pre, Ignorable l) ∧ FileReadsR f.version xs f := by
  constructor
  · intro h
    by_cases hv : ∃ ws num r, Versioned s ws num r
    · obtain ⟨ws, num, r, hv⟩ := hv
      by_cases hk : ∃ v, KnownVersion num v
      · obtain ⟨v, hk⟩ := hk
        rw [parseR_versioned hv hk] at h
        obtain ⟨pre, xs, rest, hl⟩ := layout_exists r
        by_cases hp : ∀ l ∈ pre, Ignorable l
        · rw [parseRestR_eq hl hp, fileLoopR_ok] at h
          obtain ⟨h1, h2, h3, -, h5, h6⟩ := h
          have hfv : f.version = v := h1
          subst hfv
          exact ⟨ws, num, r, pre, xs, rest, hv, hk, hl, hp, rfl, h2, h3, h5, fun n hn => sectAbsent_new.2 (h6 n hn)⟩
        · obtain ⟨a, l, b, rfl, h1, h2⟩ := not_ignorable hp
          rw [parseRestR_bad hl h1 h2] at h
          cases h
      · rw [parseR_badVersion hv hk] at h; cases h
    · rw [parseR_unversioned hv] at h; cases h
  · rintro ⟨ws, num, r, pre, xs, rest, hv, hk, hl, hp, h1, h2, h3, h5, h6⟩
    rw [parseR_versioned hv hk, parseRestR_eq hl hp, fileLoopR_ok]
    exact ⟨rfl, h2, h3, by simp, h5, fun n hn => sectAbsent_new.1 (h6 n hn)⟩

end

section
attribute [local instance] asciiUni
example : ∃ ws num r pre xs rest, Versioned c!"osu file format v3\n[Events]" ws num r ∧ KnownVersion num 3 ∧
    Layout r pre xs rest ∧ (∀ l ∈ pre, Ignorable l) ∧ FileReadsR 3 xs ({ OsuFile.new 3 with events := some [] } : OsuFile Dec96) :=
  (C87_exact _ { OsuFile.new 3 with events := some [] }).1 (by rfl)
end

section
variable {D : Type} [DecLib D] [UniLib]

/-- C87: the outcome for a text with a good header whose sections are not all read: what happens at the first section that
is not, with the same line numbers as with overflow checks. -/
theorem C87_outcome {s ws num r rest : Str} {v : Nat} {pre : List Str} {xs : List Sect} (hv : Versioned s ws num r)
    (hk : KnownVersion num v) (hl : Layout r pre xs rest) (hp : ∀ l ∈ pre, Ignorable l) {o : Res (LErr FileErr) (OsuFile D)}
    (ho : o.isOk = false) :
    OsuFile.parseR s = o ↔ ∃ p x q, xs = p ++ x :: q ∧ AllReadR D v p ∧
      StopsAtR D v (nameLine ((lines ws).length + pre.length) p x) (bodyLine ((lines ws).length + pre.length) p x)
        (p.map Sect.name) x o := by
  rw [parseR_versioned hv hk, parseRestR_eq hl hp, fileLoopR_stops ho]
  simp

end

section
attribute [local instance] asciiUni
-- the line of the rejected content is counted as with overflow checks; the first section panics there
example : (OsuFile.parseR c!"osu file format v4\n[Events]\n2,2147483647,0\n[HitObjects]\nx" : Res _ (OsuFile Dec96)).isErr = true ∧
    (OsuFile.parse c!"osu file format v4\n[Events]\n2,2147483647,0\n[HitObjects]\nx" : Res _ (OsuFile Dec96)) = .panic := ⟨by decide, by rfl⟩
end

section
variable {D : Type} [DecLib D] [UniLib]

/-- C87: reading panics exactly if reading the content of a section panics, the sections before it being read and having
other names. -/
theorem C87_panics (s : Str) : (OsuFile.parseR s : Res _ (OsuFile D)) = .panic ↔
    ∃ ws num r v pre p x q rest, ∃ n : SName, Versioned s ws num r ∧ KnownVersion num v ∧ Layout r pre (p ++ x :: q) rest ∧
      (∀ l ∈ pre, Ignorable l) ∧ AllReadR D v p ∧ x.name ∉ p.map Sect.name ∧ n.text = x.name ∧ n.outcomeR D v x.body = .panic := by
  constructor
  · intro h
    by_cases hv : ∃ ws num r, Versioned s ws num r
    · obtain ⟨ws, num, r, hv⟩ := hv
      by_cases hk : ∃ v, KnownVersion num v
      · obtain ⟨v, hk⟩ := hk
        obtain ⟨pre, xs, rest, hl⟩ := layout_exists r
        by_cases hp : ∀ l ∈ pre, Ignorable l
        · obtain ⟨p, x, q, rfl, h1, h2⟩ := (C87_outcome hv hk hl hp rfl).1 h
          rcases h2 with ⟨-, h2⟩ | ⟨-, -, h2⟩ | ⟨h2, n, hn, ⟨e, -, h3⟩ | ⟨h3, -⟩⟩
          · cases h2
          · cases h2
          · cases h3
          · exact ⟨ws, num, r, v, pre, p, x, q, rest, n, hv, hk, hl, hp, h1, h2, hn, h3⟩
        · obtain ⟨a, l, b, rfl, h1, h2⟩ := not_ignorable hp
          rw [parseR_versioned hv hk, parseRestR_bad hl h1 h2] at h
          cases h
      · rw [parseR_badVersion hv hk] at h; cases h
    · rw [parseR_unversioned hv] at h; cases h
  · rintro ⟨ws, num, r, v, pre, p, x, q, rest, n, hv, hk, hl, hp, h1, h2, hn, h3⟩
    exact (C87_outcome hv hk hl hp rfl).2 ⟨p, x, q, rfl, h1, .inr (.inr ⟨h2, n, hn, .inr ⟨h3, rfl⟩⟩)⟩

end

section
attribute [local instance] asciiUni
example : ∃ ws num r v pre p x q rest, ∃ n : SName, Versioned c!"osu file format v3\n[Events]\n2,2147483647,0\nVideox" ws num r ∧ KnownVersion num v ∧
    Layout r pre (p ++ x :: q) rest ∧ (∀ l ∈ pre, Ignorable l) ∧ AllReadR Dec96 v p ∧ x.name ∉ p.map Sect.name ∧ n.text = x.name ∧
    n.outcomeR Dec96 v x.body = .panic :=
  (C87_panics _).1 (by rfl)
end

section
variable {D : Type} [DecLib D] [UniLib]

/-- C87: events that can be written in version 5 once their times are moved back come back with every time, also one that
cannot be written with overflow checks. -/
theorem C87_events_round_trip {v : Nat} {evs : List (Event D)} (hv : v = 3 ∨ v = 4) (h : ∀ e ∈ evs, EvWritable 5 (moveEvent (-24) e))
    (hq : ∀ e ∈ evs, ∀ f, pathOf e = some f → PathPlain f) :
    ∃ s, Events.shwR v evs = some s ∧ Events.parseR v s = .ok evs := by
  have ho : offsetOf v = 24 := if_pos hv
  have hpath : ∀ e : Event D, pathOf (moveEvent (-24) e) = pathOf e := fun e => by cases e <;> rfl
  have hback : ∀ e : Event D, moveEvent 24 (moveEvent (-24) e) = e := by
    intro e
    cases e <;> simp only [moveEvent, move_back]
  obtain ⟨s, h1, h2⟩ := C35_round_trip_plain (v := 5) (evs := evs.map (moveEvent (-24)))
    (fun e he => by obtain ⟨e', he', rfl⟩ := List.mem_map.1 he; exact h e' he')
    (fun e he f hf => by
      obtain ⟨e', he', rfl⟩ := List.mem_map.1 he
      rw [hpath] at hf
      exact hq e' he' f hf)
  refine ⟨s, ?_, ?_⟩
  · rw [C87_events_written, ho, if_pos hv]; exact h1
  · refine ((C87_section v s).1 evs).2 ⟨_, h2, ?_⟩
    rw [ho, List.map_map]
    conv => lhs; rw [← List.map_id evs]
    exact List.map_congr_left fun e _ => (hback e).symm

end

section
attribute [local instance] asciiUni

example : ∃ s, Events.shwR 3 [(.break_ ⟨-2147483648, 2147483647, true⟩ : Event Dec96), .comment c!"x"] = some s ∧
    Events.parseR 3 s = .ok [(.break_ ⟨-2147483648, 2147483647, true⟩ : Event Dec96), .comment c!"x"] := by
  refine C87_events_round_trip (.inl rfl) ?_ ?_
  · intro e he
    rcases List.mem_cons.1 he with rfl | he
    · exact ⟨⟨⟨_, by unfold OldTime; simp; rfl⟩, ⟨_, by unfold OldTime; simp; rfl⟩⟩, by simp [moveEvent, cmdsOf, Event.commands, SB.listing]⟩
    · rw [List.mem_singleton.1 he]
      exact ⟨by simp [moveEvent, HeadWritableC]; decide, by simp [moveEvent, cmdsOf, Event.commands, SB.listing]⟩
  · intro e he f hf
    simp only [List.mem_cons, List.not_mem_nil, or_false] at he
    rcases he with rfl | rfl <;> cases hf

/-- C87: so a late event of a file of version 3 or 4, whose reading panics with overflow checks, is read with a time long
before the start. -/
theorem C87_false_late : ∃ f : OsuFile Dec96, OsuFile.parseR c!"osu file format v4\n[Events]\n2,2147483640,7" = .ok f ∧
    f.events = some [.break_ ⟨-2147483632, 31, true⟩] ∧
    (OsuFile.parse c!"osu file format v4\n[Events]\n2,2147483640,7" : Res _ (OsuFile Dec96)) = .panic :=
  ⟨_, rfl, rfl, rfl⟩

/-- C87: an empty last section, whose reading panics with overflow checks, is read. -/
theorem C87_empty_section : ∃ f : OsuFile Dec96, OsuFile.parseR c!"osu file format v14\n[HitObjects]\n" = .ok f ∧
    f.hitobjects = some [] ∧ (OsuFile.parse c!"osu file format v14\n[HitObjects]\n" : Res _ (OsuFile Dec96)) = .panic :=
  ⟨_, rfl, rfl, rfl⟩
end

/-! ## C88: lists of continuing values -/

/-- The second part of the last entry of a list, or that of the start values if there is none. -/
def before {α : Type} (start : α) (l : List (α × Option α)) : Option α :=
  match l.getLast? with
  | some p => p.2
  | none => some start

theorem secondLast_snoc {α : Type} (l : List α) (b : α) : secondLast (l ++ [b]) = l.getLast? := by
  unfold secondLast
  rcases List.eq_nil_or_concat l with rfl | ⟨l', a, rfl⟩
  · rfl
  · rw [List.concat_eq_append, if_neg (by simp)]
    rw [List.getElem?_append_left (by simp), List.getElem?_append_right (by simp)]
    simp

/-- C88: pushing an entry completes an incomplete last entry with the second part of the entry before it or, as the code's
comment promises, of the start values if there is none. -/
theorem C88_push {α : Type} (c : ContinuingFields α) (f : α × Option α) :
    (c.pushR f).start = c.start ∧
    ((∀ l a, c.continuing ≠ l ++ [(a, none)]) → (c.pushR f).continuing = c.continuing ++ [f]) ∧
    ∀ l a, c.continuing = l ++ [(a, none)] → (c.pushR f).continuing = l ++ [(a, before c.start.2 l), f] := by
  obtain ⟨start, l⟩ := c
  rcases List.eq_nil_or_concat l with rfl | ⟨l', ⟨a, o⟩, rfl⟩
  · exact ⟨rfl, fun _ => rfl, by simp⟩
  · rw [List.concat_eq_append]
    cases o with
    | some o =>
      have : (ContinuingFields.pushR ⟨start, l' ++ [(a, some o)]⟩ f) = ⟨start, l' ++ [(a, some o)] ++ [f]⟩ := by
        simp [ContinuingFields.pushR]
      rw [this]
      refine ⟨rfl, fun _ => rfl, fun l b e => ?_⟩
      have := congrArg List.getLast? e
      simp at this
    | none =>
      have : (ContinuingFields.pushR ⟨start, l' ++ [(a, none)]⟩ f) = ⟨start, l' ++ [(a, before start.2 l')] ++ [f]⟩ := by
        simp only [ContinuingFields.pushR, secondLast_snoc, List.getLast?_append, List.getLast?_singleton, Option.some_or,
          List.dropLast_concat, Option.isNone_none, if_true]
        unfold before
        cases l'.getLast? <;> rfl
      rw [this]
      refine ⟨rfl, fun h => absurd rfl (h l' a), fun l b e => ?_⟩
      obtain ⟨h1, h2⟩ := List.append_inj' e rfl
      simp at h2
      subst h1 h2
      simp

example : (⟨(1, 2), [(3, none)]⟩ : ContinuingFields Nat).pushR (4, none) = ⟨(1, 2), [(3, some 2), (4, none)]⟩ := by decide

/-- C88: so pushing always keeps the property that only the last entry is incomplete. -/
theorem C88_push_keeps {α : Type} {c : ContinuingFields α} (f : α × Option α) (h : PairsComplete c.continuing) :
    PairsComplete (c.pushR f).continuing := by
  obtain ⟨-, h1, h2⟩ := C88_push c f
  by_cases hl : ∃ l a, c.continuing = l ++ [(a, none)]
  · obtain ⟨l, a, hl⟩ := hl
    rw [h2 l a hl, show l ++ [(a, before c.start.2 l), f] = l ++ [(a, before c.start.2 l)] ++ [f] by simp, pairsComplete_snoc]
    rw [hl, pairsComplete_snoc] at h
    intro p hp
    rcases List.mem_append.1 hp with hp | hp
    · exact h p hp
    · rw [List.mem_singleton.1 hp]
      simp only [before]
      rcases List.eq_nil_or_concat l with rfl | ⟨l', b, rfl⟩
      · simp
      · simp only [List.concat_eq_append, List.getLast?_append, List.getLast?_singleton, Option.some_or]
        exact h b (by simp)
  · rw [h1 fun l a e => hl ⟨l, a, e⟩, pairsComplete_snoc]
    intro p hp
    rcases List.eq_nil_or_concat c.continuing with e | ⟨l', b, e⟩
    · rw [e] at hp; cases hp
    · rw [List.concat_eq_append] at e
      rw [e, pairsComplete_snoc] at h
      rw [e] at hp
      rcases List.mem_append.1 hp with hp | hp
      · exact h p hp
      · rw [List.mem_singleton.1 hp]
        intro hn
        exact hl ⟨l', b.1, by rw [e, ← hn]⟩

example : PairsComplete ((⟨(1, 2), [(3, none)]⟩ : ContinuingFields Nat).pushR (4, none)).continuing :=
  C88_push_keeps _ (badNew_iff.1 (by decide))

/-- C88: pushing agrees with the build with overflow checks wherever that does not panic. -/
theorem C88_push_agrees {α : Type} {c c' : ContinuingFields α} {f : α × Option α} (h : c.push f = some c') : c.pushR f = c' := by
  obtain ⟨start, l⟩ := c
  unfold ContinuingFields.push at h
  unfold ContinuingFields.pushR
  simp only at h ⊢
  cases hl : l.getLast? with
  | none => rw [hl] at h; exact Option.some.inj h
  | some last =>
    rw [hl] at h
    simp only at h ⊢
    split at h
    · rename_i hn
      rw [if_pos hn]
      split at h
      · cases h
      · rename_i hlt
        unfold secondLast
        rw [if_neg hlt]
        exact Option.some.inj h
    · rename_i hn
      rw [if_neg hn]; exact Option.some.inj h

example : (⟨(1, 2), [(3, some 4), (5, none)]⟩ : ContinuingFields Nat).pushR (6, none) = ⟨(1, 2), [(3, some 4), (5, some 4), (6, none)]⟩ :=
  C88_push_agrees (by decide)

/-- C88: replacing an entry never panics; it agrees with the build with overflow checks unless the list is empty, when
an error is reported: that there is no such entry or, if the new entry is incomplete and the position is not the greatest
number there is, that the second part is missing. -/
theorem C88_set {α : Type} (c : ContinuingFields α) (i : UInt64) (f : α × Option α) :
    (c.continuing ≠ [] → c.setR i f = c.set i.toNat f) ∧
    (c.continuing = [] → c.setR i f =
      .err (if f.2 = none ∧ i.toNat ≠ 2 ^ 64 - 1 then .invalidSecondFieldOption else .indexOutOfBounds)) := by
  obtain ⟨start, l⟩ := c
  unfold ContinuingFields.setR ContinuingFields.set
  refine ⟨fun h => ?_, fun h => ?_⟩
  · have hl : l.length ≠ 0 := by simpa using h
    simp only [isLastIndex, if_neg hl]
    simp only [Bool.and_eq_true, Bool.not_eq_true', beq_eq_false_iff_ne, ne_eq]
  · simp only at h
    subst h
    have hi : (i == 18446744073709551615) = decide (i.toNat = 2 ^ 64 - 1) := by
      rw [Bool.eq_iff_iff, beq_iff_eq, decide_eq_true_iff, ← UInt64.toNat_inj]
      rfl
    simp only [isLastIndex, List.length_nil, if_true, hi]
    by_cases h1 : i.toNat = 2 ^ 64 - 1 <;> cases h2 : f.2 <;> simp [h1]

example : (⟨(1, 2), []⟩ : ContinuingFields Nat).setR 0 (3, none) = .err .invalidSecondFieldOption ∧
    (⟨(1, 2), []⟩ : ContinuingFields Nat).setR 0 (3, some 4) = .err .indexOutOfBounds :=
  ⟨(C88_set _ _ _).2 rfl, (C88_set _ _ _).2 rfl⟩

/-- C88: what pushing a colour does: green of an incomplete last entry is completed or, if it is there, blue, from the
entry before or from the start values if there is none. -/
theorem C88_colour_push (c : Colours) (f : UInt8 × Option UInt8 × Option UInt8) :
    (c.pushR f).start = c.start ∧
    (c.continuing = [] → (c.pushR f).continuing = [f]) ∧
    ∀ l r g b, c.continuing = l ++ [(r, g, b)] → (c.pushR f).continuing = l ++ [
      match g, b with
      | none, b => (r, (match l.getLast? with | some p => p.2.1 | none => some c.start.2.1), b)
      | some g, none => (r, some g, (match l.getLast? with | some p => p.2.2 | none => some c.start.2.2))
      | some g, some b => (r, some g, some b), f] := by
  obtain ⟨start, l⟩ := c
  refine ⟨?_, ?_, ?_⟩
  · unfold Colours.pushR
    simp only
    repeat' split
    all_goals rfl
  · rintro ⟨⟩; rfl
  · intro l' r g b h
    have h : l = l' ++ [(r, g, b)] := h
    subst h
    simp only [Colours.pushR, List.getLast?_append, List.getLast?_singleton, Option.some_or, List.dropLast_concat]
    rw [secondLast_snoc]
    cases g with
    | none => cases l'.getLast? <;> simp
    | some g =>
      cases b with
      | none => cases l'.getLast? <;> simp
      | some b => simp

example : (⟨(1, 2, 3), [(4, some 5, none)]⟩ : Colours).pushR (6, none, none) = ⟨(1, 2, 3), [(4, some 5, some 3), (6, none, none)]⟩ := by decide

/-- C88: pushing a colour agrees with the build with overflow checks wherever that does not panic. -/
theorem C88_colour_push_agrees {c c' : Colours} {f : UInt8 × Option UInt8 × Option UInt8} (h : c.push f = some c') : c.pushR f = c' := by
  obtain ⟨start, l⟩ := c
  unfold Colours.push at h
  unfold Colours.pushR
  simp only at h ⊢
  cases hl : l.getLast? with
  | none => rw [hl] at h; exact Option.some.inj h
  | some last =>
    obtain ⟨r, g, b⟩ := last
    rw [hl] at h
    simp only at h ⊢
    cases g with
    | none =>
      simp only [Option.isNone_none, if_true] at h ⊢
      split at h
      · cases h
      · rename_i hlt
        unfold secondLast
        rw [if_neg hlt]
        exact Option.some.inj h
    | some g =>
      cases b with
      | none =>
        simp only [Option.isNone_some, Bool.false_eq_true, if_false, Option.isNone_none, if_true] at h ⊢
        split at h
        · cases h
        · rename_i hlt
          unfold secondLast
          rw [if_neg hlt]
          exact Option.some.inj h
      | some b => exact Option.some.inj h

example : (⟨(1, 2, 3), [(4, some 5, some 6), (7, some 8, none)]⟩ : Colours).pushR (9, none, none) =
    ⟨(1, 2, 3), [(4, some 5, some 6), (7, some 8, some 6), (9, none, none)]⟩ :=
  C88_colour_push_agrees (by decide)

/-- C88: a push keeps the property exactly if the last entry did not lack both green and blue, and the new entry does not
have blue without green. -/
theorem C88_colour_push_keeps {c : Colours} {f : UInt8 × Option UInt8 × Option UInt8} (hc : TriplesComplete c.continuing) :
    TriplesComplete (c.pushR f).continuing ↔ GreenFirst f ∧ ∀ l r, c.continuing ≠ l ++ [(r, none, none)] := by
  cases h : c.push f with
  | some c' => rw [C88_colour_push_agrees h]; exact C32_push hc h
  | none =>
    obtain ⟨r, g, b, hl, hgb⟩ := (C32_push_panics c f).1 h
    have := (C88_colour_push c f).2.2 [] r g b (by rw [hl]; rfl)
    rw [this]
    rw [hl] at hc ⊢
    cases g with
    | none =>
      have hb : b = none := hc.2 (r, none, b) (by simp) rfl
      subst hb
      constructor
      · intro h
        exact absurd rfl (h.1 (r, some c.start.2.1, none) (by simp)).2
      · rintro ⟨-, h⟩
        exact absurd rfl (h [] r)
    | some g =>
      obtain rfl : b = none := hgb.resolve_left (by simp)
      refine (triplesComplete_snoc (l := [(r, some g, some c.start.2.2)])).trans ?_
      constructor
      · rintro ⟨-, h⟩
        refine ⟨h, fun l r' e => ?_⟩
        have := congrArg List.getLast? e
        simp at this
      · rintro ⟨h, -⟩
        exact ⟨by simp, h⟩

example : TriplesComplete ((⟨(1, 2, 3), [(4, some 5, none)]⟩ : Colours).pushR (6, none, none)).continuing :=
  (C88_colour_push_keeps (colourNew_iff.1 (by decide))).2 ⟨fun _ => rfl, fun l r e => by
    have := congrArg List.getLast? e
    simp at this⟩

/-- C88: replacing a colour never panics; it agrees with the build with overflow checks unless the list is empty, when an
error is reported. -/
theorem C88_colour_set (c : Colours) (i : UInt64) (f : UInt8 × Option UInt8 × Option UInt8) :
    (c.continuing ≠ [] → c.setR i f = c.set i.toNat f) ∧
    (c.continuing = [] → c.setR i f =
      .err (if i.toNat ≠ 2 ^ 64 - 1 ∧ f.2.1 = none then .green
        else if (i.toNat ≠ 2 ^ 64 - 1 ∧ f.2.2 = none) ∨ (f.2.1 = none ∧ f.2.2 ≠ none) then .blue else .indexOutOfBounds)) := by
  obtain ⟨start, l⟩ := c
  unfold Colours.setR Colours.set
  refine ⟨fun h => ?_, fun h => ?_⟩
  · have hl : l.length ≠ 0 := by simpa using h
    simp only [isLastIndex, if_neg hl]
  · simp only at h
    subst h
    have hi : (i == 18446744073709551615) = decide (i.toNat = 2 ^ 64 - 1) := by
      rw [Bool.eq_iff_iff, beq_iff_eq, decide_eq_true_iff, ← UInt64.toNat_inj]
      rfl
    obtain ⟨r, g, b⟩ := f
    simp only [isLastIndex, List.length_nil, if_true, hi]
    by_cases h1 : i.toNat = 2 ^ 64 - 1 <;> cases g <;> cases b <;> simp [h1]

example : (⟨(1, 2, 3), []⟩ : Colours).setR 0 (3, some 4, none) = .err .blue := (C88_colour_set _ _ _).2 rfl

end Osu
