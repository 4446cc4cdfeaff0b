/-
C86: exactly which values cannot be saved.
-/
import Verif.Spec.Saving
import Verif.Proof.EventsRT
import Verif.Props.File
import Verif.Props.Events
import Verif.Props.TimingPoints
import Verif.Props.HitObjects

namespace Osu
open SB Ev Parser

theorem mapM_none {α β : Type} {f : α → Option β} {l : List α} : l.mapM f = none ↔ ∃ x ∈ l, f x = none := by
  induction l with
  | nil => simp
  | cons x l ih =>
    rw [List.mapM_cons]
    cases h : f x with
    | none => simp [h]
    | some y =>
      cases h' : l.mapM f with
      | none => rw [h'] at ih; simpa [h] using ih
      | some ys => rw [h'] at ih; simpa [h] using ih

section
variable {D : Type} [DecLib D]

theorem shifted_none {v : Nat} {x : Decimal D} : x.toStrShifted v = none ↔ (v = 3 ∨ v = 4) ∧ Stuck x := by
  have e : (v = 3 ∨ v = 4) ↔ (3 ≤ v ∧ v ≤ 4) := by omega
  rw [e]
  unfold Decimal.toStrShifted Stuck
  cases x with
  | right s => simp
  | left d =>
    simp only
    split
    · rename_i h; simp [h]
    · rename_i h; simp [h]

theorem printLinesP_none {α : Type} {f : α → Option Str} {l : List α} : printLinesP f l = none ↔ ∃ x ∈ l, f x = none := by
  rw [printLinesP, Option.map_eq_none_iff, mapM_none]

/-- C86: writing a timing point panics exactly if the version is 3 or 4 and 24 cannot be taken from its time. -/
theorem C86_timing_point (v : Nat) (t : TimingPoint D) : t.shw v = none ↔ (v = 3 ∨ v = 4) ∧ Stuck t.time := by
  rw [TimingPoint.shw, Option.map_eq_none_iff, shifted_none]

example : (⟨.left ⟨true, 79228162514264337593543950335, 0⟩, .ofStr c!"1", 4, .normal, .index 1, ⟨100⟩, some true, none⟩ : TimingPoint Dec96).shw 3 = none :=
  (C86_timing_point _ _).2 ⟨.inl rfl, _, rfl, by with_unfolding_all decide⟩

/-- C86: writing a hit object panics exactly if the version is 3 or 4 and 24 cannot be taken from one of its times. -/
theorem C86_hit_object (v : Nat) (o : HitObject D) : o.shw v = none ↔ (v = 3 ∨ v = 4) ∧ ∃ t ∈ objectTimes o, Stuck t := by
  unfold HitObject.shw objectTimes
  rw [Option.bind_eq_none_iff]
  cases ht : o.time.toStrShifted v with
  | none =>
    have := shifted_none.1 ht
    simp [this]
  | some s =>
    have h0 : ¬((v = 3 ∨ v = 4) ∧ Stuck o.time) := fun h => by rw [shifted_none.2 h] at ht; cases ht
    cases hp : o.params with
    | hitCircle => simpa using h0
    | slider p => simpa using h0
    | spinner e =>
      simp only [Option.some.injEq, forall_eq', Option.map_eq_none_iff, shifted_none, List.mem_cons, List.not_mem_nil, or_false,
        exists_eq_or_imp, exists_eq_left]
      exact ⟨fun h => ⟨h.1, .inr h.2⟩, fun h => ⟨h.1, h.2.resolve_left fun h' => h0 ⟨h.1, h'⟩⟩⟩
    | hold e =>
      simp only [Option.some.injEq, forall_eq', Option.map_eq_none_iff, shifted_none, List.mem_cons, List.not_mem_nil, or_false,
        exists_eq_or_imp, exists_eq_left]
      exact ⟨fun h => ⟨h.1, .inr h.2⟩, fun h => ⟨h.1, h.2.resolve_left fun h' => h0 ⟨h.1, h'⟩⟩⟩

/-- A hold whose start can be moved and whose end cannot. -/
example : (⟨⟨.ofStr c!"64", .ofStr c!"192"⟩, .ofStr c!"1000", .hold (.left ⟨true, 79228162514264337593543950335, 0⟩), true, ⟨2⟩, ⟨false, true, false, false⟩, none⟩ :
    HitObject Dec96).shw 4 = none :=
  (C86_hit_object _ _).2 ⟨.inr rfl, _, List.mem_cons_of_mem _ (List.mem_singleton.2 rfl), _, rfl, by with_unfolding_all decide⟩

omit [DecLib D] in
theorem moment_none {v : Nat} {t : Int32} : Ev.timeToStr v t = none ↔ (v = 3 ∨ v = 4) ∧ TooEarly t := by
  have e : (v = 3 ∨ v = 4) ↔ (3 ≤ v ∧ v ≤ 4) := by omega
  rw [e]
  unfold Ev.timeToStr TooEarly
  split
  · rename_i h
    split
    · simp only [reduceCtorEq, false_iff]; omega
    · simp only [true_iff]; omega
  · rename_i h
    simp only [reduceCtorEq, false_iff]; omega

theorem withCmds_some (vars : List Variable) (s : Str) (cs : List (Command D)) : ∃ t, withCmds vars s cs = some t := by
  rw [withCmds, cmdsToStr, printCmds_eq]
  exact ⟨_, rfl⟩

/-- C86: writing an event panics exactly if the version is 3 or 4 and 24 cannot be taken from one of its times that are
moved. Its commands never get in the way, however deep they are. -/
theorem C86_event (v : Nat) (vars : List Variable) (e : Event D) :
    e.shw v vars = none ↔ (v = 3 ∨ v = 4) ∧ ∃ t ∈ eventTimes e, TooEarly t := by
  have hm : ∀ {vars : List Variable} {s : Str} {cs : List (Command D)}, ¬ (withCmds vars s cs).map some = none := by
    intro vars s cs
    obtain ⟨t, h⟩ := withCmds_some vars s cs
    simp [h]
  cases e with
  | comment s => simp [Event.shw, eventTimes]
  | background e => simp only [Event.shw, eventTimes, hm, List.not_mem_nil, false_and, exists_false, and_false]
  | video e =>
    simp only [Event.shw, eventTimes, Video.shwCmd, Option.bind_eq_none_iff, List.mem_singleton, exists_eq_left]
    rw [← moment_none]
    cases h : Ev.timeToStr v e.startTime with
    | none => simp
    | some s => simp only [Option.map_some, Option.some.injEq, forall_eq', hm, reduceCtorEq]
  | break_ e =>
    simp only [Event.shw, eventTimes, Option.map_eq_none_iff, List.mem_cons, List.not_mem_nil, or_false, exists_eq_or_imp, exists_eq_left,
      Break.shw, Option.bind_eq_bind]
    rw [and_or_left, ← moment_none, ← moment_none]
    cases Ev.timeToStr v e.startTime with
    | none => simp
    | some s => cases Ev.timeToStr v e.endTime <;> simp
  | colourTransformation e =>
    simp only [Event.shw, eventTimes, ColourTransformation.shw, List.mem_singleton, exists_eq_left]
    split
    · rw [Option.map_eq_none_iff, moment_none]
    · simp only [reduceCtorEq, false_iff]; omega
  | spriteLegacy e => simp only [Event.shw, eventTimes, hm, List.not_mem_nil, false_and, exists_false, and_false]
  | animationLegacy e => simp only [Event.shw, eventTimes, hm, List.not_mem_nil, false_and, exists_false, and_false]
  | sampleLegacy e => simp only [Event.shw, eventTimes, hm, List.not_mem_nil, false_and, exists_false, and_false]
  | object e => simp only [Event.shw, eventTimes, hm, List.not_mem_nil, false_and, exists_false, and_false]
  | audioSample e => simp [Event.shw, eventTimes]

example : (.break_ ⟨5, -2147483630, true⟩ : Event Dec96).shw 4 [] = none :=
  (C86_event _ _ _).2 ⟨.inr rfl, -2147483630, by simp [eventTimes], by unfold TooEarly; decide⟩

theorem pushSection_none {α : Type} {name : Str} {x : Option α} {g : α → Option Str} :
    pushSection name x (fun x => (g x).map some) = none ↔ ∃ a, x = some a ∧ g a = none := by
  cases x with
  | none => simp [pushSection]
  | some a => simp [pushSection]

/-- C86: saving a file panics exactly if its version is 3 or 4 and there is a time in it from which 24 cannot be taken: a
time of a video, break or colour transformation among the lowest 24 numbers of 32 bits, or a number in place of a time of a
timing point or hit object from which the decimal library cannot take 24. -/
theorem C86_file (f : OsuFile D) : f.shw = none ↔
    (f.version = 3 ∨ f.version = 4) ∧ ((∃ t ∈ fileMoments f, TooEarly t) ∨ ∃ x ∈ fileClocks f, Stuck x) := by
  have h1 : pushSection c!"Events" f.events (fun x => (Events.shw f.version x).map some) = none ↔
      (f.version = 3 ∨ f.version = 4) ∧ ∃ t ∈ fileMoments f, TooEarly t := by
    rw [pushSection_none]
    simp only [Events.shw, Events.shwVars, Option.map_eq_none_iff, mapM_none, C86_event]
    unfold fileMoments
    constructor
    · rintro ⟨a, h, x, hx, hv, t, ht, he⟩
      exact ⟨hv, t, by rw [h]; exact List.mem_flatMap.2 ⟨x, hx, ht⟩, he⟩
    · rintro ⟨hv, t, ht, he⟩
      cases h : f.events with
      | none => rw [h] at ht; simp at ht
      | some a =>
        rw [h] at ht
        obtain ⟨x, hx, ht⟩ := List.mem_flatMap.1 ht
        exact ⟨a, rfl, x, hx, hv, t, ht, he⟩
  have h2 : pushSection c!"TimingPoints" f.timingPoints (fun x => (TimingPoints.shw f.version x).map some) = none ↔
      (f.version = 3 ∨ f.version = 4) ∧ ∃ x ∈ (f.timingPoints.getD []).map (·.time), Stuck x := by
    rw [pushSection_none]
    simp only [TimingPoints.shw, printLinesP_none, C86_timing_point]
    constructor
    · rintro ⟨a, h, x, hx, hv, ht⟩
      exact ⟨hv, x.time, by rw [h]; exact List.mem_map.2 ⟨x, hx, rfl⟩, ht⟩
    · rintro ⟨hv, t, ht, he⟩
      cases h : f.timingPoints with
      | none => rw [h] at ht; simp at ht
      | some a =>
        rw [h] at ht
        obtain ⟨x, hx, rfl⟩ := List.mem_map.1 ht
        exact ⟨a, rfl, x, hx, hv, he⟩
  have h3 : pushSection c!"HitObjects" f.hitobjects (fun x => (HitObjects.shw f.version x).map some) = none ↔
      (f.version = 3 ∨ f.version = 4) ∧ ∃ x ∈ (f.hitobjects.getD []).flatMap objectTimes, Stuck x := by
    rw [pushSection_none]
    simp only [HitObjects.shw, printLinesP_none, C86_hit_object]
    constructor
    · rintro ⟨a, h, x, hx, hv, t, ht, he⟩
      exact ⟨hv, t, by rw [h]; exact List.mem_flatMap.2 ⟨x, hx, ht⟩, he⟩
    · rintro ⟨hv, t, ht, he⟩
      cases h : f.hitobjects with
      | none => rw [h] at ht; simp at ht
      | some a =>
        rw [h] at ht
        obtain ⟨x, hx, ht⟩ := List.mem_flatMap.1 ht
        exact ⟨a, rfl, x, hx, hv, t, ht, he⟩
  have plain : ∀ {α : Type} (name : Str) (x : Option α) (g : α → Option Str), ∃ l, pushSection name x (fun x => some (g x)) = some l := by
    intro α name x g
    cases x <;> exact ⟨_, rfl⟩
  obtain ⟨a, ha⟩ := plain c!"General" f.general fun x => some ((General D).toStr f.version x)
  obtain ⟨b, hb⟩ := plain c!"Editor" f.editor fun x => some ((Editor D).toStr f.version x)
  obtain ⟨c, hc⟩ := plain c!"Metadata" f.metadata fun x => some (Metadata.toStr f.version x)
  obtain ⟨d, hd⟩ := plain c!"Difficulty" f.difficulty fun x => some ((Difficulty D).toStr f.version x)
  obtain ⟨e, he⟩ := plain c!"Colours" f.colours fun x => Colours.shw f.version x
  have key : f.shw = none ↔ pushSection c!"Events" f.events (fun x => (Events.shw f.version x).map some) = none ∨
      pushSection c!"TimingPoints" f.timingPoints (fun x => (TimingPoints.shw f.version x).map some) = none ∨
      pushSection c!"HitObjects" f.hitobjects (fun x => (HitObjects.shw f.version x).map some) = none := by
    unfold OsuFile.shw
    simp only [ha, hb, hc, hd, he, Option.bind_eq_bind, Option.bind_some]
    cases pushSection c!"Events" f.events (fun x => (Events.shw f.version x).map some) <;>
    cases pushSection c!"TimingPoints" f.timingPoints (fun x => (TimingPoints.shw f.version x).map some) <;>
    cases pushSection c!"HitObjects" f.hitobjects (fun x => (HitObjects.shw f.version x).map some) <;> simp
  rw [key, h1, h2, h3]
  unfold fileClocks
  simp only [List.mem_append, or_and_right, exists_or, and_or_left]

example : (⟨3, none, none, none, none, none, some [.comment c!"x", .break_ ⟨-2147483648, 7, false⟩], none, none, none⟩ : OsuFile Dec96).shw = none :=
  (C86_file _).2 ⟨.inl rfl, .inl ⟨-2147483648, by simp [fileMoments, eventTimes], by unfold TooEarly; decide⟩⟩

/-- C86: from version 5 on every value can be saved. -/
theorem C86_later {f : OsuFile D} (h : 5 ≤ f.version) : ∃ s, f.shw = some s := by
  cases hs : f.shw with
  | some s => exact ⟨s, rfl⟩
  | none => have := ((C86_file f).1 hs).1; omega

example : ∃ s, (⟨5, none, none, none, none, none, some [.break_ ⟨-2147483648, 7, false⟩], none, none, none⟩ : OsuFile Dec96).shw = some s :=
  C86_later (by decide)

/-- C86: saving the storyboard never panics; there is a text exactly if there is a storyboard and the version is 14 or later. -/
theorem C86_storyboard (f : OsuFile D) : ∃ t, f.osbToStr = some t ∧ (t.isSome ↔ f.osb.isSome ∧ 14 ≤ f.version) := by
  unfold OsuFile.osbToStr
  cases f.osb with
  | none => exact ⟨none, rfl, by simp⟩
  | some o =>
    simp only
    unfold Osb.shw
    split
    · exact ⟨none, rfl, by simp; omega⟩
    · rename_i hv
      cases o.events with
      | none => exact ⟨_, rfl, by simp; omega⟩
      | some es =>
        cases hs : Events.shwVars f.version (o.variables.getD []) es with
        | none =>
          simp only [Events.shwVars, Option.map_eq_none_iff, mapM_none, C86_event] at hs
          obtain ⟨_, _, h, _⟩ := hs
          omega
        | some t => exact ⟨_, by simp only [hs]; rfl, by simp; omega⟩

example : ∃ t, (OsuFile.new 14 : OsuFile Dec96).osbToStr = some t ∧ (t.isSome ↔ (OsuFile.new 14 : OsuFile Dec96).osb.isSome ∧ 14 ≤ (OsuFile.new 14 : OsuFile Dec96).version) :=
  C86_storyboard _

end

section
variable {D : Type} [DecLib D] [UniLib]

theorem timeReads_free {v : Nat} {p : Str} {x : Decimal D} (hv : v = 3 ∨ v = 4) (h : TimeReads v p x)
    (hd : ∀ d e : D, DecLib.canon d → DecLib.add24 d = some e → DecLib.sub24 e ≠ none) : ¬ Stuck x := by
  rintro ⟨e, rfl, hs⟩
  unfold TimeReads at h
  cases hp : (DecLib.parse p : Option D) with
  | none => rw [hp] at h; cases h
  | some d =>
    rw [hp] at h
    simp only [if_pos (show 3 ≤ v ∧ v ≤ 4 by omega)] at h
    obtain ⟨e', h1, h2⟩ := h
    cases h2
    exact hd _ _ (DecLib.parse_canon hp) h1 hs

/-- C86: a file that was loaded can be saved, if the decimal library can always take off 24 where it has added it. -/
theorem C86_loaded {s : Str} {f : OsuFile D} (h : OsuFile.parse s = .ok f)
    (hd : ∀ d e : D, DecLib.canon d → DecLib.add24 d = some e → DecLib.sub24 e ≠ none) : ∃ t, f.shw = some t := by
  cases hs : f.shw with
  | some t => exact ⟨t, rfl⟩
  | none =>
    exfalso
    obtain ⟨hv, hm⟩ := (C86_file f).1 hs
    obtain ⟨ws, num, r, pre, xs, rest, -, -, -, -, hf⟩ := (C53_exact s f).1 h
    obtain ⟨-, -, -, h4, h5⟩ := hf
    have hbody : ∀ n : SName, SectAbsent f n ∨ ∃ body, SectReads f.version f body n := by
      intro n
      by_cases hn : n.text ∈ xs.map Sect.name
      · obtain ⟨x, hx, e⟩ := List.mem_map.1 hn
        obtain ⟨-, m, hm, hr⟩ := h4 x hx
        rw [e] at hm
        rw [SName.text_inj hm] at hr
        exact .inr ⟨_, hr⟩
      · exact .inl (h5 n hn)
    rcases hm with ⟨t, ht, he⟩ | ⟨x, hx, hst⟩
    · unfold fileMoments at ht
      rcases hbody .events with ha | ⟨body, es, hp, e⟩
      · rw [show f.events = none from ha] at ht; simp at ht
      · rw [e] at ht
        obtain ⟨ev, hev, ht⟩ := List.mem_flatMap.1 ht
        rcases C34_read_fits hp ev hev with hw | ⟨h14, -⟩
        · have hw := hw.1
          have fits : ∀ t : Int32, TimeFits f.version t → ¬ TooEarly t := by
            rintro t ⟨n, hn⟩ hte
            have := n.le_toInt
            unfold OldTime at hn
            rw [if_pos hv] at hn
            unfold TooEarly at hte
            omega
          cases ev <;> simp only [eventTimes, List.not_mem_nil, List.mem_cons, or_false] at ht
          case video x => subst ht; exact fits _ hw.1 he
          case break_ x =>
            rcases ht with rfl | rfl
            · exact fits _ hw.1 he
            · exact fits _ hw.2 he
          case colourTransformation x => subst ht; exact fits _ hw.2 he
        · omega
    · unfold fileClocks at hx
      rcases List.mem_append.1 hx with hx | hx
      · rcases hbody .timingPoints with ha | ⟨body, l, hp, e⟩
        · rw [show f.timingPoints = none from ha] at hx; simp at hx
        · rw [e] at hx
          obtain ⟨p, hp', rfl⟩ := List.mem_map.1 hx
          obtain ⟨q, -, -, hq⟩ := parseLines_mem hp p hp'
          exact timeReads_free hv (C26_timing_point hq) hd hst
      · rcases hbody .hitobjects with ha | ⟨body, l, hp, e⟩
        · rw [show f.hitobjects = none from ha] at hx; simp at hx
        · rw [e] at hx
          obtain ⟨o, ho, hx⟩ := List.mem_flatMap.1 hx
          obtain ⟨q, -, -, hq⟩ := parseLines_mem hp o ho
          obtain ⟨⟨p1, -, h1⟩, h2, h3⟩ := C26_hit_object hq
          unfold objectTimes at hx
          rcases List.mem_cons.1 hx with rfl | hx
          · exact timeReads_free hv h1 hd hst
          · cases hpar : o.params <;> rw [hpar] at hx <;> simp at hx
            · subst hx
              obtain ⟨p, -, h⟩ := h2 _ hpar
              exact timeReads_free hv h hd hst
            · subst hx
              obtain ⟨p, b, -, -, h⟩ := h3 _ hpar
              exact timeReads_free hv h hd hst

end

/-- C86: decimals of 96 bits are such a library. -/
theorem C86_loaded_decimals {d e : Dec96} (hd : DecLib.canon d) (h : DecLib.add24 d = some e) :
    (DecLib.sub24 e : Option Dec96) ≠ none := by
  show Dec96.sub24 e ≠ none
  have h : Dec96.add24 d = some e := h
  have hd : Dec96.Canon d := hd
  unfold Dec96.add24 at h
  simp only at h
  split at h
  · cases h
    unfold Dec96.sub24
    have e1 : (Dec96.ofInt (d.toInt + 24 * 10 ^ d.scale) d.scale).toInt = d.toInt + 24 * 10 ^ d.scale := by
      generalize d.toInt + 24 * 10 ^ d.scale = n
      simp only [Dec96.ofInt, Dec96.toInt, decide_eq_true_eq]
      split <;> omega
    have e2 : (Dec96.ofInt (d.toInt + 24 * 10 ^ d.scale) d.scale).scale = d.scale := rfl
    simp only
    rw [e1, e2, show d.toInt + 24 * 10 ^ d.scale - 24 * 10 ^ d.scale = d.toInt by omega, if_pos]
    · nofun
    · have := hd.1
      simp only [Dec96.ofInt, Dec96.toInt]
      split <;> omega
  · cases h

section
attribute [local instance] asciiUni

example : ∃ t, ∃ f : OsuFile Dec96, OsuFile.parse c!"osu file format v4\n[Events]\n2,-2147483648,0\n[HitObjects]\n1,2,-5,12,0,7" = .ok f ∧
    f.shw = some t := by
  obtain ⟨f, hf⟩ := Res.of_isOk (r := (OsuFile.parse c!"osu file format v4\n[Events]\n2,-2147483648,0\n[HitObjects]\n1,2,-5,12,0,7" :
    Res _ (OsuFile Dec96))) (by decide)
  obtain ⟨t, ht⟩ := C86_loaded hf fun _ _ => C86_loaded_decimals
  exact ⟨t, f, hf, ht⟩

/-- C86: but a file that was loaded and is saved under an older version may not: the version field can be set freely. -/
theorem C86_false_older : ∃ f : OsuFile Dec96, OsuFile.parse c!"osu file format v14\n[Events]\n2,-2147483648,0" = .ok f ∧
    OsuFile.shw { f with version := 4 } = none := by
  obtain ⟨f, hf⟩ := Res.of_isOk (r := (OsuFile.parse c!"osu file format v14\n[Events]\n2,-2147483648,0" : Res _ (OsuFile Dec96))) (by decide)
  refine ⟨f, hf, ?_⟩
  have : (OsuFile.parse c!"osu file format v14\n[Events]\n2,-2147483648,0" >>= fun f : OsuFile Dec96 =>
    Res.ok (OsuFile.shw { f with version := 4 }) : Res _ (Option Str)) = .ok none := by decide
  rw [hf] at this
  exact Res.ok.inj this

end

end Osu
