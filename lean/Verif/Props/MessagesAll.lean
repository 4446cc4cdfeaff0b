/-
C78: what is said of a whole file that is refused. C58 for storyboard files with variables.
-/
import Verif.Spec.MessagesAll
import Verif.Proof.FaultsVars
import Verif.Props.MessagesKV
import Verif.Props.MessagesFile

namespace Osu
open SB Ev Parser

section
variable {D : Type} [DecLib D] [UniLib]

/-! ## C58: events with references to variables -/

/-- The events of a storyboard file are refused at line `k` with error `e` exactly if the lines before it are read, and line
`k` has that fault after its references are replaced. -/
theorem C58_variables {v : Nat} {vars : List Variable} {s : Str} {k : Nat} {e : EvErr} :
    (Events.parseVars v vars s : Res (LErr EvErr) (List (Event D))) = .err ⟨k, e⟩ ↔
    ∃ pre l post, ∃ evs : List (Event D), lines s = pre ++ l :: post ∧ pre.length = k ∧
      SectionReads v (CmdLineVars vars) (contentLines pre) evs ∧ ¬Blank l ∧ ¬LinePanicsVars v vars evs l ∧ LineFaultVars vars evs l e :=
  events_vars_fault

example : ∃ pre l post, ∃ evs : List (Event Dec96), lines c!"0,0,a\n S,0,$x,,1" = pre ++ l :: post ∧ pre.length = 1 ∧
    SectionReads 14 (CmdLineVars [⟨c!"x", c!"a"⟩]) (contentLines pre) evs ∧ ¬Blank l ∧
    ¬LinePanicsVars 14 [⟨c!"x", c!"a"⟩] evs l ∧ LineFaultVars [⟨c!"x", c!"a"⟩] evs l (.command .invalidStartTime) :=
  C58_variables.1 (by rfl)

/-- They panic exactly if a line does after lines that are read. -/
theorem C58_variables_panic {v : Nat} {vars : List Variable} {s : Str} :
    (Events.parseVars v vars s : Res (LErr EvErr) (List (Event D))) = .panic ↔
    ∃ pre l post, ∃ evs : List (Event D), lines s = pre ++ l :: post ∧
      SectionReads v (CmdLineVars vars) (contentLines pre) evs ∧ LinePanicsVars v vars evs l := events_vars_panics

example : ∃ pre l post, ∃ evs : List (Event Dec96), lines c!"0,0,a\n\n10,x" = pre ++ l :: post ∧
    SectionReads 14 (CmdLineVars [⟨c!"x", c!"a"⟩]) (contentLines pre) evs ∧ LinePanicsVars 14 [⟨c!"x", c!"a"⟩] evs l :=
  C58_variables_panic.1 (by rfl)

/-! ## Sections -/

theorem evLineSays_iff {vars : List Variable} {evs : List (Event D)} {l m : Str} :
    EvLineSays vars evs l m ↔ ∃ e, LineFaultVars vars evs l e ∧ e.msg = m := by
  constructor
  · intro h
    cases h with
    | event h0 hc hl h =>
      rw [evSays_eq, Option.map_eq_some_iff] at h
      obtain ⟨e, h, rfl⟩ := h
      exact ⟨e, .event h0 hc hl h, rfl⟩
    | noOwner h0 h => exact ⟨_, .noOwner h0 h, rfl⟩
    | command h0 he hc ht hl h =>
      rw [cmdSays_eq, Option.map_eq_some_iff] at h
      obtain ⟨e, h, rfl⟩ := h
      exact ⟨_, .command h0 he hc ht hl h, rfl⟩
    | deep he hc hr h => exact ⟨_, .deep he hc hr h, rfl⟩
  · rintro ⟨e, h, rfl⟩
    cases h with
    | event h0 hc hl h => exact .event h0 hc hl (by rw [evSays_eq, h]; rfl)
    | noOwner h0 h => exact .noOwner h0 h
    | command h0 he hc ht hl h => exact .command h0 he hc ht hl (by rw [cmdSays_eq, h]; rfl)
    | deep he hc hr h => exact .deep he hc hr h

/-- The text for the first faulty line of a list of events. -/
theorem C78_events (v : Nat) (vars : List Variable) (s : Str) (k : Nat) (m : Str) :
    (∃ e, (Events.parseVars v vars s : Res (LErr EvErr) (List (Event D))) = .err ⟨k, e⟩ ∧ e.msg = m) ↔ EventsSay D v vars s k m := by
  simp only [C58_variables, EventsSay, evLineSays_iff]
  constructor
  · rintro ⟨e, ⟨pre, l, post, evs, h1, h2, h3, h4, h5, h6⟩, h⟩
    exact ⟨pre, l, post, evs, h1, h2, h3, h4, h5, e, h6, h⟩
  · rintro ⟨pre, l, post, evs, h1, h2, h3, h4, h5, e, h6, h⟩
    exact ⟨e, ⟨pre, l, post, evs, h1, h2, h3, h4, h5, h6⟩, h⟩

example : EventsSay Dec96 14 [] c!"0,0,a\nfoo,1" 1 c!"Unknown event type" := (C78_events 14 [] _ _ _).1 ⟨_, by rfl, by rfl⟩

theorem linesSay_iff {E α : Type} {f : Str → Res E α} {msg : E → Str} {panics : Str → Prop} {says : Str → Option Str}
    (hp : ∀ l, f l = .panic ↔ panics l) (he : ∀ l m, (∃ e, f l = .err e ∧ msg e = m) ↔ ¬panics l ∧ says l = some m) (s : Str) (k : Nat) (m : Str) :
    (∃ e, parseLines f s = .err ⟨k, e⟩ ∧ msg e = m) ↔ LinesSay panics says s k m := by
  have ho : ∀ l, (∃ a, f l = .ok a) ↔ ¬panics l ∧ says l = none := by
    intro l
    constructor
    · rintro ⟨a, h⟩
      have hn : ¬panics l := fun hx => by have := (hp l).2 hx; rw [h] at this; cases this
      refine ⟨hn, ?_⟩
      cases hs : says l with
      | none => rfl
      | some m =>
        obtain ⟨e, h', -⟩ := (he l m).2 ⟨hn, hs⟩
        rw [h] at h'; cases h'
    · rintro ⟨h1, h2⟩
      cases hf : f l with
      | ok a => exact ⟨a, rfl⟩
      | panic => exact absurd ((hp l).1 hf) h1
      | err e =>
        have := ((he l _).1 ⟨e, hf, rfl⟩).2
        rw [h2] at this; cases this
  simp only [parseLines_firstBad, firstBad_split, LinesSay, ho]
  constructor
  · rintro ⟨e, ⟨pre, l, post, h1, h2, h3, h4, h5⟩, h6⟩
    exact ⟨pre, l, post, h1, h2, h3, h4, (he l m).1 ⟨e, h5, h6⟩⟩
  · rintro ⟨pre, l, post, h1, h2, h3, h4, h5⟩
    obtain ⟨e, h5, h6⟩ := (he l m).2 h5
    exact ⟨e, ⟨pre, l, post, h1, h2, h3, h4, h5⟩, h6⟩

/-- The text for the content of a section of a beatmap file, and its line in it. -/
theorem C78_section (n : SName) (v : Nat) (s : Str) (k : Nat) (m : Str) :
    (∃ e, n.outcome D v s = .err ⟨k, e⟩ ∧ e.msg = m) ↔ SectSays D v s k m n := by
  have lift : ∀ {E α : Type} (into : E → FileErr) (r : Res (LErr E) α),
      (∃ e, (processingLine into r 0 >>= fun _ => Res.ok ()) = Res.err ⟨k, e⟩ ∧ e.msg = m) ↔ ∃ e, r = .err ⟨k, e⟩ ∧ (into e).msg = m := by
    intro E α into r
    cases r with
    | ok a => exact ⟨fun ⟨_, h, _⟩ => (by cases h), fun ⟨_, h, _⟩ => (by cases h)⟩
    | panic => exact ⟨fun ⟨_, h, _⟩ => (by cases h), fun ⟨_, h, _⟩ => (by cases h)⟩
    | err e =>
      obtain ⟨j, e⟩ := e
      constructor
      · rintro ⟨x, h, hm⟩
        cases h
        exact ⟨e, rfl, hm⟩
      · rintro ⟨x, h, hm⟩
        cases h
        exact ⟨into e, rfl, hm⟩
  cases n with
  | general => exact (lift _ _).trans (C74_general v s k m)
  | editor => exact (lift _ _).trans (C74_editor v s k m)
  | metadata => exact (lift _ _).trans (C74_metadata v s k m)
  | difficulty => exact (lift _ _).trans (C74_difficulty v s k m)
  | events => exact (lift _ _).trans (C78_events v [] s k m)
  | timingPoints =>
    refine (lift _ _).trans (linesSay_iff (msg := TPErr.msg) (fun l => ?_) (fun l m => ?_) s k m)
    · rw [TimingPoint.parse_panic]
    · cases hs : splitOnC ',' l with
      | nil => exact absurd hs (splitOnC_ne_nil _ _)
      | cons p qs => exact C66_timing_point hs m
  | colours =>
    refine (lift _ _).trans ?_
    simp only [SectSays]
    by_cases hv : 3 ≤ v ∧ v ≤ 4
    · rw [Colours.parse, if_pos hv]
      exact ⟨fun ⟨_, h, _⟩ => (by cases h), fun h => absurd hv h.1⟩
    · simp only [hv, not_false_eq_true, true_and]
      rw [← linesSay_iff (f := Colour.parse) (msg := Osu.ColourErr.msg) (fun l => ?_) (fun l m => ?_) s k m]
      · refine exists_congr fun e => and_congr_left' ?_
        rw [Colours.parse, if_neg hv]
        cases hp : parseLines Colour.parse s with
        | ok l => exact ⟨fun h => (by cases h), fun h => (by cases h)⟩
        | err x => exact ⟨fun h => (by cases h; rfl), fun h => (by cases h; rfl)⟩
        | panic => exact ⟨fun h => (by cases h), fun h => (by cases h)⟩
      · simp only [iff_false]
        exact Colour.parse_no_panic l
      · rw [C66_colour]; simp
  | hitobjects =>
    exact (lift _ _).trans (linesSay_iff (msg := HOErr.msg) (fun l => C59_panic) (fun l m => C66_hit_object m) s k m)

example : SectSays Dec96 14 c!"Mode: 9" 0 c!"Unknown `GameMode` variant" .general :=
  (C78_section .general 14 _ _ _).1 ⟨_, by rfl, by rfl⟩

/-! ## Beatmap files -/

/-- What is said of a text that is refused, and the line that is named. -/
theorem fileSays_iff (s : Str) (k : Nat) (m : Str) :
    (∃ e, (OsuFile.parse s : Res (LErr FileErr) (OsuFile D)) = .err ⟨k, e⟩ ∧ e.msg = m) ↔ FileSays D s k m := by
  constructor
  · rintro ⟨e, h, rfl⟩
    by_cases hv : ∃ ws num r, Versioned s ws num r
    · obtain ⟨ws, num, r, hv⟩ := hv
      by_cases hk : ∃ v, KnownVersion num v
      · obtain ⟨v, hk⟩ := hk
        obtain ⟨pre, xs, rest, hl⟩ := layout_exists r
        rcases pre_cases pre with hp | ⟨a, l, b, rfl, ha, hb⟩
        · obtain ⟨p, x, q, rfl, hr, hs⟩ := (C46_outcome hv hk hl hp rfl).1 h
          rcases hs with ⟨hx, h⟩ | ⟨hx, hn, h⟩ | ⟨hx, n, hn, ⟨e', he, h⟩ | ⟨-, h⟩ | ⟨-, -, h⟩⟩
          · cases h; exact .repeated hv hk hl hp hr hx
          · cases h; exact .unknown hv hk hl hp hr hn
          · cases h; exact .content hv hk hl hp hr hx hn ((C78_section n v x.body _ _).1 ⟨_, he, rfl⟩)
          · cases h
          · cases h
        · rw [(C46_unexpected_line hv hk hl ha hb).1] at h
          cases h
          exact .line hv hk hl ha hb
      · rw [parse_badVersion hv hk] at h
        cases h
        exact .version hv hk
    · rw [parse_unversioned hv] at h
      cases h
      exact .noVersion hv
  · intro h
    cases h with
    | noVersion h => exact ⟨_, parse_unversioned h, rfl⟩
    | version hv hk => exact ⟨_, parse_badVersion hv hk, rfl⟩
    | line hv hk hl ha hb => exact ⟨_, (C46_unexpected_line hv hk hl ha hb).1, rfl⟩
    | repeated hv hk hl hp hr hx => exact ⟨_, C44_duplicate hv hk hl hp hr hx, rfl⟩
    | unknown hv hk hl hp hr hx => exact ⟨_, C44_unknown hv hk hl hp hr hx, rfl⟩
    | content hv hk hl hp hr hx hn hm =>
      obtain ⟨e, he, rfl⟩ := (C78_section _ _ _ _ _).2 hm
      exact ⟨e, (C46_outcome hv hk hl hp rfl).2 ⟨_, _, _, rfl, hr, .inr (.inr ⟨hx, _, hn, .inl ⟨_, he, rfl⟩⟩)⟩, rfl⟩

theorem shown {E : Type} {msg : E → Str} {says : Nat → Str → Prop} {α : Type} {r : Res (LErr E) α}
    (h : ∀ k m, (∃ e, r = .err ⟨k, e⟩ ∧ msg e = m) ↔ says k m) (input t : Str) :
    ((∃ e, r = .err e ∧ e.shw msg = t) ↔ ∃ k m, says k m ∧ t = c!"Line " ++ natToStr (k + 1) ++ c!", " ++ m) ∧
    ((∃ e, r = .err e ∧ e.shwWithLine msg input = t) ↔
      ∃ k m, says k m ∧ t = c!"Line " ++ natToStr (k + 1) ++ c!": " ++ ((lines input)[k]?).getD [] ++ c!", " ++ m) := by
  constructor <;> constructor
  · rintro ⟨⟨k, e⟩, he, rfl⟩
    exact ⟨k, msg e, (h _ _).1 ⟨e, he, rfl⟩, rfl⟩
  · rintro ⟨k, m, hs, rfl⟩
    obtain ⟨e, he, rfl⟩ := (h _ _).2 hs
    exact ⟨_, he, rfl⟩
  · rintro ⟨⟨k, e⟩, he, rfl⟩
    exact ⟨k, msg e, (h _ _).1 ⟨e, he, rfl⟩, rfl⟩
  · rintro ⟨k, m, hs, rfl⟩
    obtain ⟨e, he, rfl⟩ := (h _ _).2 hs
    exact ⟨_, he, rfl⟩

/-- The whole text shown for a beatmap file that is refused, without and with the offending line. -/
theorem C78_file (s t : Str) :
    ((∃ e, (OsuFile.parse s : Res (LErr FileErr) (OsuFile D)) = .err e ∧ e.shw FileErr.msg = t) ↔
      ∃ k m, FileSays D s k m ∧ t = c!"Line " ++ natToStr (k + 1) ++ c!", " ++ m) ∧
    ((∃ e, (OsuFile.parse s : Res (LErr FileErr) (OsuFile D)) = .err e ∧ e.shwWithLine FileErr.msg s = t) ↔
      ∃ k m, FileSays D s k m ∧ t = c!"Line " ++ natToStr (k + 1) ++ c!": " ++ ((lines s)[k]?).getD [] ++ c!", " ++ m) :=
  shown (fileSays_iff s) s t

/-- Only one thing is said of a text. -/
theorem C78_file_one {s : Str} {k k' : Nat} {m m' : Str} (h : FileSays D s k m) (h' : FileSays D s k' m') : k = k' ∧ m = m' := by
  obtain ⟨e, he, rfl⟩ := (fileSays_iff s k m).2 h
  obtain ⟨e', he', rfl⟩ := (fileSays_iff s k' m').2 h'
  rw [he] at he'
  cases he'
  exact ⟨rfl, rfl⟩

/-! ## Storyboard files -/

theorem osbReads_names {v : Nat} {p : List Sect} {o : Osb D} (h : OsbReads v p o) :
    (c!"Variables" ∈ p.map Sect.name ↔ o.variables ≠ none) ∧ (c!"Events" ∈ p.map Sect.name ↔ o.events ≠ none) ∧
      ∀ n ∈ p.map Sect.name, n = c!"Variables" ∨ n = c!"Events" := by
  have ne : (c!"Variables" : Str) ≠ c!"Events" := by decide
  cases h with
  | none => simp
  | vars hx _ => simp [hx]
  | events hy _ => simp [hy]
  | varsEvents hx hy _ _ => simp [hx, hy]
  | eventsVars hy hx _ _ => simp [hx, hy]

theorem osbSays_iff {v : Nat} (hv : 14 ≤ v) (s : Str) (k : Nat) (m : Str) :
    (∃ e, (Osb.parse v s : Res (LErr OsbErr) (Option (Osb D))) = .err ⟨k, e⟩ ∧ e.msg = m) ↔ OsbSays D v s k m := by
  have rej := fun e => C55_rejected (D := D) v s (.err ⟨k, e⟩) rfl
  have var : ∀ {b : Str} {k : Nat} {m : Str}, (∃ e, FirstBad Variable.parse b k e ∧ e.msg = m) ↔ LinesSay (fun _ => False) variableSays b k m := by
    intro b k m
    rw [← linesSay_iff (f := Variable.parse) (msg := VarErr.msg) (fun l => ?_) (fun l m => ?_) b k m]
    · simp only [parseLines_firstBad]
    · simp only [iff_false]; exact C37_no_panic l
    · rw [C66_variable]; simp
  constructor
  · rintro ⟨e, h, rfl⟩
    obtain ⟨-, pre, xs, rest, hl, ⟨a, l, b, rfl, ha, hb, h⟩ | ⟨hp, p, x, q, o, rfl, hr, h⟩⟩ := (rej e).1 h
    · cases h; exact .line hl ha hb
    · obtain ⟨n1, n2, -⟩ := osbReads_names hr
      generalize hx : (Res.err ⟨k, e⟩ : Res (LErr OsbErr) (Option (Osb D))) = r at h
      cases h with
      | dupVariables a b => cases hx; exact .repeated hl hp hr (by rw [a]; exact n1.2 b)
      | dupEvents a b => cases hx; exact .repeated hl hp hr (by rw [a]; exact n2.2 b)
      | unknown a b => cases hx; exact .unknown hl hp hr a b
      | variables a b c =>
        cases hx
        exact .variables hl hp hr a (by rw [a, n1]; exact fun h => h b) (var.1 ⟨_, c, rfl⟩)
      | events a b c =>
        cases hx
        exact .events hl hp hr a (by rw [a, n2]; exact fun h => h b) ((C78_events _ _ _ _ _).1 ⟨_, c, rfl⟩)
      | panic => cases hx
  · intro h
    cases h with
    | line hl ha hb => exact ⟨_, (rej _).2 ⟨hv, _, _, _, hl, .inl ⟨_, _, _, rfl, ha, hb, rfl⟩⟩, rfl⟩
    | repeated hl hp hr hx =>
      obtain ⟨n1, n2, n3⟩ := osbReads_names hr
      rcases n3 _ hx with e | e
      · rw [e] at hx
        exact ⟨_, (rej _).2 ⟨hv, _, _, _, hl, .inr ⟨hp, _, _, _, _, rfl, hr, .dupVariables e (n1.1 hx)⟩⟩, rfl⟩
      · rw [e] at hx
        exact ⟨_, (rej _).2 ⟨hv, _, _, _, hl, .inr ⟨hp, _, _, _, _, rfl, hr, .dupEvents e (n2.1 hx)⟩⟩, rfl⟩
    | unknown hl hp hr hx hy =>
      exact ⟨_, (rej _).2 ⟨hv, _, _, _, hl, .inr ⟨hp, _, _, _, _, rfl, hr, .unknown hx hy⟩⟩, rfl⟩
    | variables hl hp hr hx hn hm =>
      obtain ⟨n1, -, -⟩ := osbReads_names hr
      obtain ⟨e, he, rfl⟩ := var.2 hm
      refine ⟨.variable e, (rej _).2 ⟨hv, _, _, _, hl, .inr ⟨hp, _, _, _, _, rfl, hr, .variables hx ?_ he⟩⟩, rfl⟩
      exact Classical.byContradiction fun h => hn (by rw [hx]; exact n1.2 h)
    | events hl hp hr hx hn hm =>
      obtain ⟨-, n2, -⟩ := osbReads_names hr
      obtain ⟨e, he, rfl⟩ := (C78_events _ _ _ _ _).2 hm
      refine ⟨.events e, (rej _).2 ⟨hv, _, _, _, hl, .inr ⟨hp, _, _, _, _, rfl, hr, .events hx ?_ he⟩⟩, rfl⟩
      exact Classical.byContradiction fun h => hn (by rw [hx]; exact n2.2 h)

/-- The whole text shown for a storyboard file that is refused, without and with the offending line. -/
theorem C78_storyboard {v : Nat} (hv : 14 ≤ v) (s t : Str) :
    ((∃ e, (Osb.parse v s : Res (LErr OsbErr) (Option (Osb D))) = .err e ∧ e.shw OsbErr.msg = t) ↔
      ∃ k m, OsbSays D v s k m ∧ t = c!"Line " ++ natToStr (k + 1) ++ c!", " ++ m) ∧
    ((∃ e, (Osb.parse v s : Res (LErr OsbErr) (Option (Osb D))) = .err e ∧ e.shwWithLine OsbErr.msg s = t) ↔
      ∃ k m, OsbSays D v s k m ∧ t = c!"Line " ++ natToStr (k + 1) ++ c!": " ++ ((lines s)[k]?).getD [] ++ c!", " ++ m) :=
  shown (osbSays_iff hv s) s t

end

/-! ## Examples -/

section
attribute [local instance] asciiUni

/-- A reference that is not replaced leaves a line without a readable time. -/
example : (Events.parseVars 14 [⟨c!"t", c!"5"⟩] c!"Sprite,Pass,Centre,a.png,1,2\n F,0,$t,$u,1" : Res (LErr EvErr) (List (Event Dec96))) =
    .err ⟨1, .command .invalidEndTime⟩ := by rfl

/-- The fault is in the text that the line stands for: the value of the variable brings a column of its own. -/
example : StandsFor [⟨c!"t", c!"5,6"⟩] c!" F,0,$t,1" c!" F,0,5,6,1" :=
  standsFor_iff.2 ⟨c!"0,$t,1", by decide, by decide⟩

def badFile : Str := c!"osu file format v14\n\n[Colours]\nCombo1 : 1,2,3\nCombo2 : 1,2"

example : FileSays Dec96 badFile 4 c!"Missing blue value" :=
  (fileSays_iff badFile 4 _).1 ⟨.colours (.rgb .missingBlue), by rfl, by decide⟩

example : ∃ e, (OsuFile.parse badFile : Res (LErr FileErr) (OsuFile Dec96)) = .err e ∧ e.shw FileErr.msg = c!"Line 5, Missing blue value" :=
  ((C78_file badFile _).1).2 ⟨4, c!"Missing blue value", (fileSays_iff badFile 4 _).1 ⟨.colours (.rgb .missingBlue), by rfl, by decide⟩, by decide⟩

example : OsbSays Dec96 14 c!"[Variables]\n$a" 1 c!"Missing `=` for assignment" :=
  (osbSays_iff (by omega) _ _ _).1 ⟨.variable .missingEquals, by rfl, by decide⟩

example : FileSays Dec96 c!"osu file format v15" 0 c!"Invalid file version, expected versions from 3 ~ 14" :=
  .version (ws := []) (num := c!"15") (r := []) ⟨⟨[], .inl rfl, rfl⟩, by simp [AllC], by decide, by decide, .inl rfl⟩ (by
    rintro ⟨w, hw, h⟩
    have h1 := (parseUnsigned_ok_iff (max 15 w) _ _).2 ⟨hw, by omega⟩
    rw [show (c!"15" : Str) = natToStr 15 by decide, parseUnsigned_natToStr (max 15 w) 15 (by omega)] at h1
    cases h1
    omega)

end

section
attribute [local instance] asciiUni

example (k : Nat) (m : Str) (h : FileSays Dec96 badFile k m) : k = 4 ∧ m = c!"Missing blue value" :=
  C78_file_one h ((fileSays_iff badFile 4 _).1 ⟨.colours (.rgb .missingBlue), by rfl, by decide⟩)

end

end Osu
