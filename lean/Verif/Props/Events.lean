/-
The Events section: C34, C35, C36, and its part of C13, C14, C24, C25, C26, C42.
-/
import Verif.Proof.EventsPanic
import Verif.Proof.Dec96

namespace Osu
open SB Ev
variable {D : Type} [DecLib D]

/-! ### C34: one event -/

/-- A line is accepted as the start of an event exactly if its comma separated pieces have the form described by
`EvReads`, and then means what `EvReads` says. -/
theorem C34_grammar (v : Nat) (s : Str) (e : Event D) : parseEvent v s = .ok e ↔ EvReads v (splitOnC ',' s) e :=
  event_reads

example : (parseEvent 14 c!"Video,-5,a.avi,1,2" : Res EvErr (Event Dec96)) =
    .ok (.video ⟨-5, c!"a.avi", some ⟨.ofStr c!"1", .ofStr c!"2"⟩, [], false⟩) := by rfl

/-- An event whose first line can be written, and without commands, prints to one line, which is read as that
event with quotes around its path if it needs them. -/
theorem C34_round_trip [UniLib] {v : Nat} {e : Event D} (hw : HeadWritable v e) (hc : cmdsOf e = []) :
    ∃ l, Event.shw v [] e = some (some l) ∧ '\n' ∉ l ∧ Events.parse v l = .ok [quoted e] := by
  have hw' : EvWritable v e := ⟨hw, by rw [hc, listing_nil]; intro x hx; cases hx⟩
  obtain ⟨s, h1, h2, -⟩ := events_round_trip (v := v) (evs := [e]) (by intro x hx; rw [List.mem_singleton.1 hx]; exact hw')
  cases e with
  | comment t =>
    have hs : s = c!"//" ++ t := by
      have : Events.shw v [(.comment t : Event D)] = some (c!"//" ++ t) := rfl
      rw [h1] at this; cases this; rfl
    subst hs
    refine ⟨_, rfl, ?_, h2⟩
    intro hm
    have hm : '\n' ∈ t := by simpa using hm
    exact absurd (hw _ hm) (by decide)
  | _ =>
    obtain ⟨l, hl, hp⟩ := head_print (v := v) hw (by intro s h; cases h)
    have hl' := hp []
    have e1 : ∀ vars, withCmds vars l ([] : List (Command D)) = some l := fun _ => by
      simp [withCmds, cmdsToStr, printCmds, join]
    rw [hc, e1] at hl'
    refine ⟨l, hl', fun hm => absurd (hl.chars _ hm) (by decide), ?_⟩
    have : s = l := by
      rw [Events.shw, Events.shwVars] at h1
      simp only [List.mapM_cons, List.mapM_nil, hl'] at h1
      simpa [join] using h1.symm
    rw [← this]; exact h2

/-- If the path needs no quotes, it is read as that very event. -/
theorem C34_round_trip_plain [UniLib] {v : Nat} {e : Event D} (hw : HeadWritable v e) (hc : cmdsOf e = [])
    (hq : ∀ f, pathOf e = some f → PathPlain f) :
    ∃ l, Event.shw v [] e = some (some l) ∧ Events.parse v l = .ok [e] := by
  obtain ⟨l, h1, -, h2⟩ := C34_round_trip hw hc
  rw [quoted_plain hq] at h2
  exact ⟨l, h1, h2⟩

section
attribute [local instance] asciiUni
private def ex1 : Event Dec96 := .object ⟨.foreground, ⟨.inr 12, true⟩, ⟨.ofStr c!"-1", .ofStr c!"x"⟩,
  .animation 3 ⟨false, 15, 1⟩ .loopOnce c!"\"a b.png\"", []⟩
example : HeadWritable 14 ex1 ∧ Event.shw 14 [] ex1 = some (some c!"Animation,Foreground,12,\"a b.png\",-1,x,3,1.5,LoopOnce") :=
  ⟨⟨⟨rfl, .inr (by decide)⟩, decWritable_ofStr (D := Dec96) (f := fieldChar) (s := c!"-1") (by decide),
    decWritable_ofStr (D := Dec96) (f := fieldChar) (s := c!"x") (by decide),
    by show Dec96.Canon _; unfold Dec96.Canon; decide, by unfold PathWritableC; decide⟩, by decide⟩

end

theorem read_writableC [UniLib] {cr : Bool} {v : Nat} {s : Str} {evs : List (Event D)} (hs : cr = false → '\r' ∉ s)
    (h : Events.parse v s = .ok evs) : ∀ e ∈ evs, writtenIn v e = true → EvWritableC cr v e := by
  rw [events_reads] at h
  refine sectionReads_writable h ?_
  intro l hl c hc
  have h1 := (List.mem_filter.1 hl).1
  have h2 : c ≠ '\n' := by have := lines_noLF s l h1 c hc; simpa using this
  cases cr with
  | true => simp [lastC, h2]
  | false =>
    have h3 : c ≠ '\r' := by
      have := lines_allC (f := fun c => !(c == '\r')) (s := s)
        (fun c hc => by simp only [Bool.not_eq_true', beq_eq_false_iff_ne]; rintro rfl; exact hs rfl hc) l h1 c hc
      simpa using this
    simp [lastC, h2, h3]

omit [DecLib D] in
theorem not_written {v : Nat} {e : Event D} (h : writtenIn v e = false) : 14 ≤ v ∧ ∃ c, e = .colourTransformation c := by
  cases e with
  | colourTransformation c => exact ⟨by simpa [writtenIn] using h, c, rfl⟩
  | _ => cases h

/-- Every event that is read can be written, except for a colour transformation in version 14. -/
theorem C34_read_is_writable [UniLib] {v : Nat} {s : Str} {evs : List (Event D)} (hs : '\r' ∉ s)
    (h : Events.parse v s = .ok evs) (e : Event D) (he : e ∈ evs) : EvWritable v e ∨ (14 ≤ v ∧ ∃ c, e = .colourTransformation c) := by
  cases hc : writtenIn v e with
  | true => exact .inl (read_writableC (fun _ => hs) h e he hc)
  | false => exact .inr (not_written hc)

example [UniLib] (e : Event Dec96) (he : e ∈ [(.colourTransformation ⟨1, 2, 3, 4⟩ : Event Dec96)]) :
    EvWritable 14 e ∨ (14 ≤ 14 ∧ ∃ c, e = .colourTransformation c) :=
  C34_read_is_writable (s := c!"3,1,2,3,4") (by decide) (by rfl) e he

/-- The pieces of every event that is read, from any text, can be written, except for a colour transformation in version 14. -/
theorem C34_read_fits [UniLib] {v : Nat} {s : Str} {evs : List (Event D)} (h : Events.parse v s = .ok evs) (e : Event D) (he : e ∈ evs) :
    EvFits v e ∨ (14 ≤ v ∧ ∃ c, e = .colourTransformation c) := by
  cases hc : writtenIn v e with
  | true => exact .inl (read_writableC (cr := true) nofun h e he hc)
  | false => exact .inr (not_written hc)

section
attribute [local instance] asciiUni
example : (Events.parse 14 c!"3,1,2,3,4" : Res (LErr EvErr) (List (Event Dec96))) = .ok [.colourTransformation ⟨1, 2, 3, 4⟩] := by
  rfl

/-- In version 14 a colour transformation is read, but not written. -/
theorem C34_colour_transformation_lost : ∃ e : Event Dec96, Events.parse 14 c!"3,1,2,3,4" = .ok [e] ∧ Events.shw 14 [e] = some [] :=
  ⟨.colourTransformation ⟨1, 2, 3, 4⟩, by rfl, by rfl⟩

/-- A path with a blank comes back with the quotes as part of the path. -/
theorem C34_path_false : ∃ (e e' : Event Dec96) (l : Str), HeadWritable 14 e ∧ Event.shw 14 [] e = some (some l) ∧
    Events.parse 14 l = .ok [e'] ∧ pathOf e ≠ pathOf e' :=
  ⟨.background ⟨0, c!"a b.png", none, []⟩, .background ⟨0, c!"\"a b.png\"", none, []⟩, c!"0,0,\"a b.png\"",
    ⟨by unfold PathWritableC; decide, trivial⟩, by decide, by rfl, by decide⟩
end

/-! ### C35: the section -/

/-- A section is accepted exactly if its lines that are not blank are, for each event, a first line followed by
one line for each command in depth first order, indented by its level. -/
theorem C35_grammar [UniLib] (v : Nat) (s : Str) (evs : List (Event D)) :
    Events.parse v s = .ok evs ↔ SectionReads v CmdLineReads (contentLines (lines s)) evs := by
  rw [contentLines_eq]; exact events_reads

section
attribute [local instance] asciiUni
example : ∃ evs : List (Event Dec96), SectionReads 14 CmdLineReads (contentLines (lines c!"//x\n\n0,0,a.png\n L,1,2\n__S,0,3,,1")) evs :=
  ⟨_, (C35_grammar _ _ _).1 (by rfl)⟩
end

/-- Events that can be written print to a text that is read as the same events, with quotes around the paths that
need them. -/
theorem C35_round_trip [UniLib] {v : Nat} {evs : List (Event D)} (h : ∀ e ∈ evs, EvWritable v e) :
    ∃ s, Events.shw v evs = some s ∧ Events.parse v s = .ok (evs.map quoted) := by
  obtain ⟨s, h1, h2, -⟩ := events_round_trip h
  exact ⟨s, h1, h2⟩

/-- Carriage returns in the pieces are kept too, as long as none comes to stand at the end of a line of the text. -/
theorem C35_round_trip_cr [UniLib] {v : Nat} {evs : List (Event D)} (h : ∀ e ∈ evs, EvFits v e) :
    ∃ s, Events.shw v evs = some s ∧ (CleanEnds s → Events.parse v s = .ok (evs.map quoted)) := by
  obtain ⟨ls, hs, -⟩ := events_lines (v := v) (vars := []) fun e he => ⟨(h e he).1, cmdsRead_of_writable (h e he).2⟩
  refine ⟨_, hs, fun hc => ?_⟩
  obtain ⟨t, h1, h2, -⟩ := events_round_trip_fits h fun _ t ht => by
    have := hs.symm.trans ht
    cases this; exact hc
  have := hs.symm.trans h1
  cases this
  exact h2

/-- If no path needs quotes, the very same events with the same nested commands are read. -/
theorem C35_round_trip_plain [UniLib] {v : Nat} {evs : List (Event D)} (h : ∀ e ∈ evs, EvWritable v e)
    (hq : ∀ e ∈ evs, ∀ f, pathOf e = some f → PathPlain f) :
    ∃ s, Events.shw v evs = some s ∧ Events.parse v s = .ok evs := by
  obtain ⟨s, h1, h2⟩ := C35_round_trip h
  rw [show evs.map quoted = evs by
    conv => rhs; rw [← List.map_id evs]
    exact List.map_congr_left fun e he => quoted_plain (hq e he)] at h2
  exact ⟨s, h1, h2⟩

section
attribute [local instance] asciiUni
private def ex2 : List (Event Dec96) := [.comment c!"x", .background ⟨0, c!"a.png", none,
  [.mk (some 1) (.loop 2 [.mk (some 3) (.scale .linear none (.ofStr c!"1") [])]), .mk none (.rotate .linear none (.ofStr c!"1") [])]⟩]
example : Events.shw 14 ex2 = some c!"//x\n0,0,a.png\n L,1,2\n  S,0,3,,1\n R,0,,,1" := by decide
example : (Events.parse 14 c!"//x\n\n0,0,a.png\n L,1,2\n__S,0,3,,1\n R,0,,,1" : Res (LErr EvErr) (List (Event Dec96))) = .ok ex2 := by rfl
end

/-! ### C36: panics -/

/-- Reading a section panics exactly if, after lines that are accepted as the events `evs`, there is a line that
panics: a line with a bad end of its header, a moved time that overflows, an animation with a bad loop type, or a
command line of the last event that cannot be cut at its first comma or is a bad trigger. -/
theorem C36_exact [UniLib] (v : Nat) (s : Str) : (Events.parse v s : Res (LErr EvErr) (List (Event D))) = .panic ↔
    ∃ pre l post, ∃ evs : List (Event D), lines s = pre ++ l :: post ∧
      SectionReads v CmdLineReads (contentLines pre) evs ∧ LinePanics v evs l := by
  simp only [contentLines_eq]; exact events_panics

section
attribute [local instance] asciiUni
example : ∃ pre l post, ∃ evs : List (Event Dec96), lines c!"0,0,a\n\n10,x\n" = pre ++ l :: post ∧
    SectionReads 14 CmdLineReads (contentLines pre) evs ∧ LinePanics 14 evs l :=
  (C36_exact 14 _).1 (by rfl)
end

/-- A line panics as the start of an event exactly if it has a known header that is neither the whole line nor followed
by a comma, a time that overflows when moved by 24, or an animation with an unknown loop type. -/
theorem C36_event_line (v : Nat) (l : Str) : (parseEvent v l : Res EvErr (Event D)) = .panic ↔ EvPanics D v l :=
  event_panics

example : EvPanics Dec96 14 c!"10,x" := (C36_event_line _ _).1 (by rfl)

section
attribute [local instance] asciiUni
/-- Digits 0 to 6 followed by something else than a comma. -/
theorem C36_false_header : (Events.parse 14 c!"10,x" : Res (LErr EvErr) (List (Event Dec96))) = .panic := by rfl
/-- Characters of several bytes before the first comma of a command line. -/
theorem C36_false_char : (Events.parse 14 c!"0,0,a\n ÄÄ,0" : Res (LErr EvErr) (List (Event Dec96))) = .panic := by rfl
/-- A time near the end of the range in version 3. -/
theorem C36_false_time : (Events.parse 3 c!"2,2147483647,0" : Res (LErr EvErr) (List (Event Dec96))) = .panic := by rfl
/-- An unknown loop type. -/
theorem C36_false_loop : (Events.parse 14 c!"Animation,Pass,Centre,a.png,1,2,3,4,Loop" : Res (LErr EvErr) (List (Event Dec96))) = .panic := by rfl
/-- A trigger with a custom sample set of two digits. -/
theorem C36_false_trigger : (Events.parse 14 c!"0,0,a\n T,HitSound12,0,1" : Res (LErr EvErr) (List (Event Dec96))) = .panic := by rfl
end

/-! ### C13, C14, C42 -/

/-- Events: an error at line `k` means exactly that the lines before are accepted, and line `k` is not blank, does
not panic and cannot be added to them. -/
theorem C13_events [UniLib] (v : Nat) (s : Str) (k : Nat) :
    (∃ e, (Events.parse v s : Res (LErr EvErr) (List (Event D))) = .err ⟨k, e⟩) ↔
    ∃ pre l post, ∃ evs : List (Event D), lines s = pre ++ l :: post ∧ pre.length = k ∧
      SectionReads v CmdLineReads (contentLines pre) evs ∧ ¬Blank l ∧ ¬LinePanics v evs l ∧
      ∀ evs' : List (Event D), ¬SectionReads v CmdLineReads (contentLines pre ++ [l]) evs' := by
  simp only [contentLines_eq]; exact events_error

section
attribute [local instance] asciiUni
example : ∃ pre l post, ∃ evs : List (Event Dec96), lines c!"0,0,a\n\nVideo,1" = pre ++ l :: post ∧ pre.length = 2 ∧
    SectionReads 14 CmdLineReads (contentLines pre) evs ∧ ¬Blank l ∧ ¬LinePanics 14 evs l ∧
    ∀ evs' : List (Event Dec96), ¬SectionReads 14 CmdLineReads (contentLines pre ++ [l]) evs' :=
  (C13_events 14 _ _).1 ⟨_, by rfl⟩
end

/-- Events: inserting or removing blank lines changes neither the value nor the kind of the error. -/
theorem C14_events [UniLib] {v : Nat} {s t : Str} (h : BlankEq s t) :
    (Events.parse v t : Res _ (List (Event D))).mapErr LErr.error = (Events.parse v s).mapErr LErr.error := by
  unfold Events.parse Events.parseVars
  rw [loop_filter_err (lines t) 0 0, loop_filter_err (lines s) 0 0, h.filter]

/-- Events: saving an accepted section gives a text that is accepted, and saved as the same text. -/
theorem C42_events [UniLib] {v : Nat} {s : Str} {evs : List (Event D)} (hs : ∀ l ∈ lines s, '\r' ∉ l) (h : Events.parse v s = .ok evs) :
    ∃ t, ∃ evs' : List (Event D), Events.shw v evs = some t ∧ Events.parse v t = .ok evs' ∧ Events.shw v evs' = some t := by
  obtain ⟨t, h1, h2, h3, -⟩ := events_stable hs h
  exact ⟨t, _, h1, h2, h3⟩

/-- What is read the second time: the events but for colour transformations in version 14, with quotes around the
paths that need them. -/
theorem C42_events_value [UniLib] {v : Nat} {s : Str} {evs : List (Event D)} (hs : ∀ l ∈ lines s, '\r' ∉ l) (h : Events.parse v s = .ok evs) :
    ∃ t, Events.shw v evs = some t ∧ Events.parse v t = .ok ((evs.filter (writtenIn v)).map quoted) := by
  obtain ⟨t, h1, h2, -⟩ := events_stable hs h
  exact ⟨t, h1, h2⟩

section
attribute [local instance] asciiUni
example : (Events.parse 14 c!"0,0,a\n\n L,1,2\n   S,0,3,,1\nx" : Res (LErr EvErr) (List (Event Dec96))) =
    .err ⟨3, .push ⟨0, 3⟩⟩ := by rfl
example : ∃ evs : List (Event Dec96), Events.parse 14 c!"0,00,a b\n\n_S,00,3,3,1.0" = .ok evs ∧
    Events.shw 14 evs = some c!"0,0,\"a b\"\n S,0,3,3,1.0" := ⟨_, by rfl, by decide⟩
end

/-! ### C24, C25, C26 -/

/-- The volume of an audio sample after any number of `set` calls is the last argument not above 100, or else the
initial value; each call reports whether the argument was accepted. -/
theorem C24_audio_volume (c : Ev.Volume) (ops : List UInt8) :
    (ops.foldl (fun c n => (Ev.Volume.set c n).1) c).val = ((ops.filter fun n => n.toNat ≤ 100).getLast?).getD c.val ∧
      ∀ n, (Ev.Volume.set c n).2 = decide (n.toNat ≤ 100) := by
  have hset : ∀ (c : Ev.Volume) n, Ev.Volume.set c n = if n.toNat ≤ 100 then (⟨n⟩, true) else (c, false) := by
    intro c n
    unfold Ev.Volume.set Ev.Volume.new
    by_cases h : n.toNat ≤ 100
    · have : ¬ n > 100 := by intro h'; have : 100 < n.toNat := h'; omega
      rw [if_neg this, if_pos h]
    · have : n > 100 := by show 100 < n.toNat; omega
      rw [if_pos this, if_neg h]
  constructor
  · induction ops generalizing c with
    | nil => rfl
    | cons n ns ih =>
      rw [List.foldl_cons, ih, hset]
      by_cases h : n.toNat ≤ 100
      · rw [if_pos h, List.filter_cons_of_pos (by simpa using h), List.getLast?_cons]
        simp
      · rw [if_neg h, List.filter_cons_of_neg (by simpa using h)]
  · intro n
    rw [hset]
    by_cases h : n.toNat ≤ 100 <;> simp [h]

example : (([5, 200, 101] : List UInt8).foldl (fun c n => (Ev.Volume.set c n).1) Ev.Volume.default).val = 5 :=
  (C24_audio_volume _ _).1.trans (by decide)

/-- So it is never above 100 if it was created by the constructor, the default or reading. -/
theorem C24_audio_volume_bound {c : Ev.Volume} (h : (∃ n, Ev.Volume.new n = some c) ∨ c = Ev.Volume.default ∨ (∃ s, Ev.Volume.parse s = .ok c))
    (ops : List UInt8) : (ops.foldl (fun c n => (Ev.Volume.set c n).1) c).val.toNat ≤ 100 := by
  rw [(C24_audio_volume c ops).1]
  have hc : c.val.toNat ≤ 100 := by
    rcases h with ⟨n, h⟩ | rfl | ⟨s, h⟩
    · unfold Ev.Volume.new at h
      split at h
      · cases h
      · rename_i hn; cases h
        have : ¬ (100 < n.toNat) := hn
        show n.toNat ≤ 100
        omega
    · decide
    · exact (volume_iff.1 h).2
  cases hl : (ops.filter fun n => n.toNat ≤ 100).getLast? with
  | none => exact hc
  | some n =>
    have := List.mem_of_getLast? hl
    simpa using (List.mem_filter.1 this).2

example : ([5, 200, 101] : List UInt8).foldl (fun c n => (Ev.Volume.set c n).1) Ev.Volume.default = ⟨5⟩ := by decide

/-- The codes of the layers and origins of legacy events and of the layers of audio samples: a number stands for an
entry exactly if it is the code of that entry. -/
theorem C25_event_codes (n : UInt64) :
    (∀ a, LayerLegacy.ofCode n = some a ↔ a.code = n) ∧ (∀ a, OriginLegacy.ofCode n = some a ↔ a.code = n) ∧
      ∀ a, AudioLayer.ofCode n = some a ↔ a.code = n := by
  refine ⟨fun a => ⟨fun h => ?_, ?_⟩, fun a => ⟨fun h => ?_, ?_⟩, fun a => ⟨fun h => ?_, ?_⟩⟩
  · unfold LayerLegacy.ofCode at h
    repeat' split at h
    all_goals (cases h <;> (rename_i hn; exact hn.symm))
  · rintro rfl; cases a <;> rfl
  · unfold OriginLegacy.ofCode at h
    repeat' split at h
    all_goals (cases h <;> (rename_i hn; exact hn.symm))
  · rintro rfl; cases a <;> rfl
  · unfold AudioLayer.ofCode at h
    repeat' split at h
    all_goals (cases h <;> (rename_i hn; exact hn.symm))
  · rintro rfl; cases a <;> rfl

example : LayerLegacy.ofCode 3 = some .foreground ∧ LayerLegacy.ofCode 9 = none := by decide

/-- Every number is accepted as the origin of a storyboard object and survives reading and printing. -/
theorem C25_origin (n : Int32) : ∃ o, Origin.parse (i32ToStr n) = .ok o ∧ o.shw = i32ToStr n := by
  by_cases h : 0 ≤ n.toInt ∧ n.toInt ≤ 9
  · obtain ⟨t, ht⟩ : ∃ t, originTypes[n.toInt.toNat]? = some t := by
      have : n.toInt.toNat < originTypes.length := by show n.toInt.toNat < 10; omega
      exact ⟨_, List.getElem?_eq_getElem this⟩
    refine ⟨⟨.inl t, true⟩, origin_iff.2 (.code (parseI32_i32ToStr n) h.1 ht), ?_⟩
    have : OriginType.ofInt n = some t := by rw [originInt, if_pos h.1, ht]
    have : t.toInt = n := by
      unfold OriginType.ofInt at this
      repeat' split at this
      all_goals (cases this <;> (rename_i hn; exact hn.symm))
    rw [Origin.shw, if_pos rfl]
    simp only [this]
  · exact ⟨⟨.inr n, true⟩, origin_iff.2 (.other (parseI32_i32ToStr n) (by omega)), rfl⟩

example : Origin.parse c!"-3" = .ok ⟨.inr (-3), true⟩ ∧ Origin.parse c!"7" = .ok ⟨.inl .centreRight, true⟩ := ⟨by rfl, by rfl⟩

/-- The times of videos, breaks and colour transformations in memory are those in the text, moved by 24 in versions 3
and 4; the time of a background is not moved. -/
theorem C26_events {v : Nat} {s : Str} {e : Event D} (h : parseEvent v s = .ok e) :
    (∀ x, e = .video x → ∃ p n, (splitOnC ',' s)[1]? = some p ∧ parseI32 p = .ok n ∧ OldTime v n x.startTime) ∧
    (∀ x, e = .colourTransformation x → ∃ p n, (splitOnC ',' s)[1]? = some p ∧ parseI32 p = .ok n ∧ OldTime v n x.startTime) ∧
    (∀ x, e = .break_ x → ∃ p q n m, (splitOnC ',' s)[1]? = some p ∧ (splitOnC ',' s)[2]? = some q ∧ parseI32 p = .ok n ∧
      parseI32 q = .ok m ∧ OldTime v n x.startTime ∧ OldTime v m x.endTime) ∧
    (∀ x, e = .background x → ∃ p, (splitOnC ',' s)[1]? = some p ∧ parseI32 p = .ok x.startTime) := by
  have h' := event_reads.1 h
  generalize splitOnC ',' s = ps at h'
  refine ⟨?_, ?_, ?_, ?_⟩
  · rintro x rfl
    cases h' with | video hh ht hn hp => exact ⟨_, _, rfl, ht, hn⟩
  · rintro x rfl
    cases h' with | colourTransformation ht hn => exact ⟨_, _, rfl, ht, hn⟩
  · rintro x rfl
    cases h' with | break_ hh ha hn hb hm => exact ⟨_, _, _, _, rfl, rfl, ha, hb, hn, hm⟩
  · rintro x rfl
    cases h' with | background ht hp => exact ⟨_, rfl, ht⟩

/-- Printing takes the 24 off again: the number printed is the one that is read as this time. If there is none the
printer panics. -/
theorem C26_event_print (v : Nat) (t : Int32) :
    (∀ n, OldTime v n t → Ev.timeToStr v t = some (i32ToStr n)) ∧ ((∀ n, ¬OldTime v n t) → Ev.timeToStr v t = none) := by
  constructor
  · intro n hn
    obtain ⟨m, hm, h⟩ := timeFits ⟨n, hn⟩
    have : m = n := by
      apply Int32.toInt_inj.1
      unfold OldTime at hm hn; omega
    rw [h, this]
  · intro h
    exact timeNotFits fun ⟨n, hn⟩ => h n hn

example : (parseEvent 4 c!"2,100,200" : Res EvErr (Event Dec96)) = .ok (.break_ ⟨124, 224, true⟩) ∧
    Ev.timeToStr 4 124 = some c!"100" ∧ Ev.timeToStr 4 (-2147483648) = none := ⟨by rfl, by decide, by decide⟩

section
attribute [local instance] asciiUni

/-- A comment, and a background with a loop and two further commands. -/
def evExampleText : Str := c!"//x\n0,0,a b.png\n L,1,2\n__S,0,3,,1\n R,0,,,1\n2,100,200"
def evExample : List (Event Dec96) := [.comment c!"x", .background ⟨0, c!"a b.png", none,
  [.mk (some 1) (.loop 2 [.mk (some 3) (.scale .linear none (.ofStr c!"1") [])]), .mk none (.rotate .linear none (.ofStr c!"1") [])]⟩,
  .break_ ⟨100, 200, true⟩]

theorem evExample_read : Events.parse 14 evExampleText = .ok evExample := by rfl

theorem evExample_ok : ∀ e ∈ evExample, EvWritable 14 e := fun e he =>
  (C34_read_is_writable (by decide) evExample_read e he).resolve_right fun ⟨_, c, hc⟩ => by
    subst hc
    simp [evExample] at he

example : ∃ s, Events.shw 14 evExample = some s ∧ Events.parse 14 s = .ok (evExample.map quoted) := C35_round_trip evExample_ok
example : Events.shw 14 evExample = some c!"//x\n0,0,\"a b.png\"\n L,1,2\n  S,0,3,,1\n R,0,,,1\n2,100,200" := by decide

example : ∃ l, Event.shw 14 [] (.background ⟨0, c!"a b.png", none, []⟩ : Event Dec96) = some (some l) ∧ '\n' ∉ l ∧
    Events.parse 14 l = .ok [(.background ⟨0, c!"\"a b.png\"", none, []⟩ : Event Dec96)] :=
  C34_round_trip (e := .background ⟨0, c!"a b.png", none, []⟩) ⟨by unfold PathWritableC; decide, trivial⟩ rfl

/-- A carriage return in the middle of a comment. -/
example : ∃ s, Events.shw 14 [(.comment c!"a\rb" : Event Dec96)] = some s ∧
    (CleanEnds s → Events.parse 14 s = .ok ([(.comment c!"a\rb" : Event Dec96)].map quoted)) :=
  C35_round_trip_cr fun e he => by
    have he := List.mem_singleton.1 he
    subst he
    exact ⟨(by decide : ∀ c ∈ c!"a\rb", lastC true c = true), nofun⟩

example : ∃ t, ∃ evs' : List (Event Dec96), Events.shw 14 evExample = some t ∧ Events.parse 14 t = .ok evs' ∧ Events.shw 14 evs' = some t :=
  C42_events (s := evExampleText) (by decide) evExample_read
example : ∃ t, Events.shw 14 evExample = some t ∧ Events.parse 14 t = .ok ((evExample.filter (writtenIn 14)).map quoted) :=
  C42_events_value (s := evExampleText) (by decide) evExample_read

/-- Empty lines make no difference but for the line of an error. -/
example : (Events.parse 14 c!"0,0,a\n\n S,0,3,,1" : Res (LErr EvErr) (List (Event Dec96))).mapErr LErr.error =
    (Events.parse 14 c!"0,0,a\n S,0,3,,1").mapErr LErr.error :=
  C14_events (.ins (.refl _) (.mid c!"0,0,a" c!" S,0,3,,1" [] (by decide)))

/-- The time of a video in version 4. -/
example (e : Event Dec96) (x : Video Dec96) (h : parseEvent 4 c!"Video,100,a.avi" = .ok e) (hx : e = .video x) :
    ∃ p n, (splitOnC ',' c!"Video,100,a.avi")[1]? = some p ∧ parseI32 p = .ok n ∧ OldTime 4 n x.startTime :=
  (C26_events h).1 x hx
example : (parseEvent 4 c!"Video,100,a.avi" : Res EvErr (Event Dec96)) = .ok (.video ⟨124, c!"a.avi", none, [], false⟩) := by rfl

end

end Osu
