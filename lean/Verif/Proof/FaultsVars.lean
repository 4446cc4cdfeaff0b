/-
Faults and panics of events with references to variables.
-/
import Verif.Spec.FaultsVars
import Verif.Proof.FaultsEvents
import Verif.Proof.OsbRead

namespace Osu
open SB Ev Parser

theorem afterHeader_cuts {l : Str} : (∃ b, AfterHeader l b) ↔ HeaderCuts l := by
  rw [← withoutHeader_iff]
  exact exists_congr fun b => withoutHeader_some.symm

theorem standsFor_cuts {vars : List Variable} {l t : Str} (h : StandsFor vars l t) : HeaderCuts l :=
  let ⟨b, hb, _⟩ := h
  afterHeader_cuts.1 ⟨b, hb⟩

theorem standsFor_iff {vars : List Variable} {l t : Str} : StandsFor vars l t ↔ ∃ b, withoutHeader l = some b ∧ t = substVars b l vars := by
  simp only [StandsFor, withoutHeader_some, resolved_iff]

theorem standsFor_unique {vars : List Variable} {l t u : Str} (h : StandsFor vars l t) (h' : StandsFor vars l u) : t = u := by
  obtain ⟨b, hb, rfl⟩ := standsFor_iff.1 h
  obtain ⟨b', hb', rfl⟩ := standsFor_iff.1 h'
  rw [hb] at hb'
  cases hb'; rfl

theorem standsFor_exists {vars : List Variable} {l : Str} (h : HeaderCuts l) : ∃ t, StandsFor vars l t := by
  obtain ⟨b, hb⟩ := (withoutHeader_iff l).2 h
  exact ⟨_, standsFor_iff.2 ⟨b, hb, rfl⟩⟩

/-- Without a dollar sign the text is the line. -/
theorem standsFor_plain {vars : List Variable} {l t : Str} (h : StandsFor vars l t) (hd : '$' ∉ l) : t = l := by
  obtain ⟨b, hb, ht⟩ := h
  rw [resolved_iff, substVars_none (fun hm => hd (afterHeader_sub hb _ hm))] at ht
  exact ht

theorem standsFor_nil {l t : Str} : StandsFor [] l t ↔ HeaderCuts l ∧ t = l := by
  constructor
  · intro h
    obtain ⟨b, -, hr⟩ := id h
    cases hr
    exact ⟨standsFor_cuts h, rfl⟩
  · rintro ⟨h, rfl⟩
    obtain ⟨b, hb⟩ := afterHeader_cuts.2 h
    exact ⟨b, hb, .nil _⟩

section
variable {D : Type} [DecLib D] [UniLib] {v : Nat} {vars : List Variable} {evs : List (Event D)} {l : Str}

theorem cmdParse_text {t : Str} (h : StandsFor vars l t) : (cmdParse vars l : Res EvErr (Command D)) = (Command.parse t).mapErr .command := by
  obtain ⟨b, hb, rfl⟩ := standsFor_iff.1 h
  unfold cmdParse
  rw [hb]

theorem cmdParse_uncut (h : ¬HeaderCuts l) : (cmdParse vars l : Res EvErr (Command D)) = .panic := by
  unfold cmdParse
  cases hw : withoutHeader l with
  | none => rfl
  | some b => exact absurd ((withoutHeader_iff l).1 ⟨b, hw⟩) h

theorem cmdParse_vars_panics : (cmdParse vars l : Res EvErr (Command D)) = .panic ↔
    ¬HeaderCuts l ∨ ∃ t, StandsFor vars l t ∧ CmdPanics (cmdPieces t) := by
  by_cases hh : HeaderCuts l
  · obtain ⟨t, ht⟩ := standsFor_exists (vars := vars) hh
    have hp := SB.Command.command_panics (D := D) (s := t)
    rw [cmdParse_text ht]
    constructor
    · intro h
      refine .inr ⟨t, ht, hp.1 ?_⟩
      cases hx : (Command.parse t : Res CmdErr (Command D)) with
      | panic => rfl
      | ok c => rw [hx] at h; cases h
      | err c => rw [hx] at h; cases h
    · rintro (h | ⟨u, hu, h⟩)
      · exact absurd hh h
      · obtain rfl := standsFor_unique ht hu
        rw [hp.2 h]; rfl
  · exact ⟨fun _ => .inl hh, fun _ => cmdParse_uncut hh⟩

theorem cmdParse_vars_fault {e : EvErr} : (cmdParse vars l : Res EvErr (Command D)) = .err e ↔
    ∃ t p qs x, StandsFor vars l t ∧ cmdPieces t = p :: qs ∧ ¬CmdPanics (p :: qs) ∧ cmdFault p qs = some x ∧ e = .command x := by
  by_cases hh : HeaderCuts l
  · obtain ⟨t, ht⟩ := standsFor_exists (vars := vars) hh
    rw [cmdParse_text ht]
    obtain ⟨p, qs, hl⟩ : ∃ p qs, cmdPieces t = p :: qs := by
      cases h : cmdPieces t with
      | nil => exact absurd h (splitOnC_ne_nil _ _)
      | cons p qs => exact ⟨p, qs, rfl⟩
    have hf := fun x => SB.Command.parse_err_iff (D := D) (s := t) hl (e := x)
    constructor
    · intro h
      cases hx : (Command.parse t : Res CmdErr (Command D)) with
      | panic => rw [hx] at h; cases h
      | ok c => rw [hx] at h; cases h
      | err x =>
        rw [hx] at h
        injection h with h
        exact ⟨t, p, qs, x, ht, hl, ((hf x).1 hx).1, ((hf x).1 hx).2, h.symm⟩
    · rintro ⟨u, p', qs', x, hu, hl', hn, hx, rfl⟩
      obtain rfl := standsFor_unique ht hu
      rw [hl] at hl'
      cases hl'
      rw [(hf x).2 ⟨hn, hx⟩]; rfl
  · rw [cmdParse_uncut hh]
    constructor
    · nofun
    · rintro ⟨t, _, _, _, ht, -⟩
      exact absurd (standsFor_cuts ht) hh

theorem linePanicsVars_nonblank (h : LinePanicsVars v vars evs l) : trim l ≠ [] := by
  rw [Ne, trim_eq_nil]
  intro hw
  cases h with
  | event h0 h => exact linePanics_nonblank (D := D) (v := v) (evs := []) (.event h0 h) (trim_eq_nil.2 hw)
  | header h0 he hc h => exact linePanics_nonblank (D := D) (v := v) (.command h0 he hc (.inl h)) (trim_eq_nil.2 hw)
  | command h0 he hc ht h =>
    have : '$' ∉ l := fun hm => absurd (hw _ hm) (by decide)
    obtain rfl := standsFor_plain ht this
    exact linePanics_nonblank (D := D) (v := v) (.command h0 he hc (.inr h)) (trim_eq_nil.2 hw)

theorem step_vars_panics : step v vars evs l = .panic ↔ LinePanicsVars v vars evs l := by
  unfold step
  by_cases hb : trim l = []
  · rw [if_pos hb]
    exact ⟨nofun, fun h => absurd hb (linePanicsVars_nonblank h)⟩
  rw [if_neg hb]
  cases hc : stripPrefix c!"//" l with
  | some r =>
    simp only
    refine ⟨nofun, fun h => ?_⟩
    have hl := (SB.TriggerType.stripPrefix_iff).1 hc
    subst hl
    cases h with
    | event _ h =>
      obtain ⟨c, t, h, hc⟩ := evPanics_first h
      injection h with h _
      subst h
      exact absurd hc (by decide)
    | header h0 _ _ _ => exact absurd h0 (by simp [indentOf])
    | command h0 _ _ _ _ => exact absurd h0 (by simp [indentOf])
  | none =>
    simp only
    have hi : (l.takeWhile Command.isIndent).length = indentOf l := rfl
    rw [hi]
    by_cases h0 : indentOf l = 0
    · rw [if_neg (by omega)]
      have := event_panics (D := D) (v := v) (l := l)
      constructor
      · intro h
        refine .event h0 (this.1 ?_)
        cases hx : (parseEvent v l : Res EvErr (Event D)) with
        | panic => rfl
        | ok e => rw [hx] at h; cases h
        | err e => rw [hx] at h; cases h
      · intro h
        cases h with
        | event _ h => rw [this.2 h]
        | header h1 _ _ _ => omega
        | command h1 _ _ _ _ => omega
    · rw [if_pos (by omega)]
      unfold stepCmd
      have hpos : 1 ≤ indentOf l := by omega
      constructor
      · intro h
        cases he : evs.getLast? with
        | none => rw [he] at h; cases h
        | some e =>
          rw [he] at h
          simp only at h
          cases hcs : e.commands with
          | none => rw [hcs] at h; cases h
          | some cs =>
            rw [hcs] at h
            simp only at h
            have hx : (cmdParse vars l : Res EvErr (Command D)) = .panic := by
              cases hx : (cmdParse vars l : Res EvErr (Command D)) with
              | panic => rfl
              | err e => rw [hx] at h; cases h
              | ok c =>
                rw [hx] at h
                simp only at h
                have := tryPush_no_panic cs c (indentOf l) (by omega)
                split at h
                · cases h
                · cases h
                · rename_i hp; rw [hp] at this; exact absurd rfl this
            rcases cmdParse_vars_panics.1 hx with hx | ⟨t, ht, hx⟩
            · exact .header hpos he (by rw [hcs]; rfl) hx
            · exact .command hpos he (by rw [hcs]; rfl) ht hx
      · intro h
        have key : ∀ {e : Event D}, evs.getLast? = some e → e.commands.isSome →
            (cmdParse vars l : Res EvErr (Command D)) = .panic → stepCmd vars evs l (indentOf l) = .panic := by
          intro e he hcs h
          unfold stepCmd
          rw [he]
          simp only
          obtain ⟨cs, hcs⟩ := Option.isSome_iff_exists.1 hcs
          rw [hcs]
          simp only
          rw [h]
        cases h with
        | event h1 _ => omega
        | header h1 he hcs h => exact key he hcs (cmdParse_vars_panics.2 (.inl h))
        | command h1 he hcs ht h => exact key he hcs (cmdParse_vars_panics.2 (.inr ⟨_, ht, h⟩))

theorem cmdLineVars_parse {c : Command D} : CmdLineVars vars l (indentOf l, c) ↔ 1 ≤ indentOf l ∧ cmdParse vars l = .ok c := by
  rw [cmdParse_ok]
  simp only [CmdLineVars, true_and]
  rfl

/-- A line gives exactly the error of its fault. -/
theorem step_vars_fault {e : EvErr} :
    step v vars evs l = .err e ↔ ¬Blank l ∧ ¬LinePanicsVars v vars evs l ∧ LineFaultVars vars evs l e := by
  rw [← step_vars_panics, blank_iff, nonBlank_false]
  unfold step
  by_cases hb : trim l = []
  · simp [hb]
  simp only [hb, not_false_eq_true, true_and, if_false]
  cases hc : stripPrefix c!"//" l with
  | some r =>
    simp only
    refine ⟨nofun, fun h => ?_⟩
    have hl := (SB.TriggerType.stripPrefix_iff).1 hc
    have hp : (c!"//").isPrefixOf l = true := by rw [hl]; rfl
    have hi : indentOf l = 0 := by rw [hl]; rfl
    cases h.2 with
    | event _ h _ _ => rw [hp] at h; cases h
    | noOwner h0 _ => omega
    | command h0 _ _ _ _ _ => omega
    | deep _ _ hr _ => have := hr.1; simp only at this; omega
  | none =>
    have hp : (c!"//").isPrefixOf l = false := by
      cases hx : (c!"//").isPrefixOf l with
      | false => rfl
      | true =>
        obtain ⟨r, hr⟩ := List.isPrefixOf_iff_prefix.1 hx
        rw [(SB.TriggerType.stripPrefix_iff).2 hr.symm] at hc; cases hc
    simp only
    have hi : (l.takeWhile Command.isIndent).length = indentOf l := rfl
    rw [hi]
    by_cases h0 : indentOf l = 0
    · rw [if_neg (by omega)]
      obtain ⟨p, qs, hl⟩ : ∃ p qs, splitOnC ',' l = p :: qs := by
        cases h : splitOnC ',' l with
        | nil => exact absurd h (splitOnC_ne_nil _ _)
        | cons p qs => exact ⟨p, qs, rfl⟩
      have hf := fun x => event_fault (D := D) (v := v) hl (e := x)
      have hpan := event_panics (D := D) (v := v) (l := l)
      constructor
      · intro h
        cases hx : (parseEvent v l : Res EvErr (Event D)) with
        | panic => rw [hx] at h; cases h
        | ok e => rw [hx] at h; cases h
        | err x =>
          rw [hx] at h
          injection h with h
          subst h
          exact ⟨nofun, .event h0 hp hl ((hf x).1 hx).2⟩
      · rintro ⟨hn, h⟩
        cases h with
        | event _ _ hl' h =>
          rw [hl] at hl'
          injection hl' with h1 h2
          subst h1 h2
          rw [(hf e).2 ⟨fun h' => hn (by rw [hpan.2 h']), h⟩]
        | noOwner h0 _ => omega
        | command h0 _ _ _ _ _ => omega
        | deep _ _ hr _ => have := hr.1; simp only at this; omega
    · rw [if_pos (by omega)]
      have hpos : 1 ≤ indentOf l := by omega
      unfold stepCmd
      have owned : ∀ {x : Event D} {cs : List (Command D)} {e' : EvErr}, evs.getLast? = some x → x.commands = some cs →
          LineFaultVars vars evs l e' → ((∃ t p qs a, StandsFor vars l t ∧ cmdPieces t = p :: qs ∧ cmdFault p qs = some a ∧ e' = .command a) ∨
            ∃ c : Command D, CmdLineVars vars l (indentOf l, c) ∧ maxLevel (listing 1 cs) < indentOf l ∧ e' = .push ⟨namedLevel cs, indentOf l⟩) := by
        intro x cs e' hx hcs hf
        cases hf with
        | event h1 _ _ _ => omega
        | noOwner _ h => have := h x hx; rw [hcs] at this; cases this
        | command _ _ _ ht hl h => exact .inl ⟨_, _, _, _, ht, hl, h, rfl⟩
        | deep he hc hr h =>
          rw [hx] at he
          injection he with he
          subst he
          rw [hcs] at hc
          injection hc with hc
          subst hc
          exact .inr ⟨_, hr, h, rfl⟩
      cases he : evs.getLast? with
      | none =>
        simp only
        constructor
        · intro h; injection h with h; subst h; exact ⟨nofun, .noOwner hpos (by rw [he]; exact nofun)⟩
        · rintro ⟨_, h⟩
          cases h with
          | event h1 _ _ _ => omega
          | noOwner _ _ => rfl
          | command _ he' _ _ _ _ => rw [he] at he'; cases he'
          | deep he' _ _ _ => rw [he] at he'; cases he'
      | some x =>
        simp only
        cases hcs : x.commands with
        | none =>
          simp only
          constructor
          · intro h; injection h with h; subst h
            exact ⟨nofun, .noOwner hpos (by rw [he]; rintro _ ⟨rfl⟩; exact hcs)⟩
          · rintro ⟨_, h⟩
            cases h with
            | event h1 _ _ _ => omega
            | noOwner _ _ => rfl
            | command _ he' hc _ _ _ => rw [he] at he'; cases he'; rw [hcs] at hc; cases hc
            | deep he' hc _ _ => rw [he] at he'; cases he'; rw [hcs] at hc; cases hc
        | some cs =>
          simp only
          cases hx : (cmdParse vars l : Res EvErr (Command D)) with
          | panic => simp
          | err a =>
            simp only [ne_eq, reduceCtorEq, not_false_eq_true, true_and, Res.err.injEq]
            obtain ⟨t, p, qs, b, ht, hl, hn, hb, rfl⟩ := cmdParse_vars_fault.1 hx
            constructor
            · rintro rfl; exact .command hpos he (by rw [hcs]; rfl) ht hl hb
            · intro h
              rcases owned he hcs h with ⟨u, p', qs', c, hu, hl', hc, rfl⟩ | ⟨c, hr, _⟩
              · obtain rfl := standsFor_unique ht hu
                rw [hl] at hl'
                cases hl'
                rw [hb] at hc; injection hc with hc; rw [hc]
              · have := (cmdLineVars_parse.1 hr).2
                rw [hx] at this; cases this
          | ok c =>
            have hr : CmdLineVars vars l (indentOf l, c) := cmdLineVars_parse.2 ⟨hpos, hx⟩
            have hnf : ∀ {t p qs a}, StandsFor vars l t → cmdPieces t = p :: qs → cmdFault p qs ≠ some a := by
              intro t p qs a ht hl ha
              have hnp : ¬CmdPanics (p :: qs) := fun hp' => by
                have := (cmdParse_vars_panics (D := D)).2 (.inr ⟨t, ht, by rw [hl]; exact hp'⟩)
                rw [hx] at this; cases this
              have := (cmdParse_vars_fault (D := D)).2 ⟨t, p, qs, a, ht, hl, hnp, ha, rfl⟩
              rw [hx] at this; cases this
            have hnp := tryPush_no_panic cs c (indentOf l) hpos
            have hok := tryPush_ok_iff c (indentOf l) cs hpos
            have hrep := tryPush_reported cs c (indentOf l)
            simp only
            generalize hq : tryPush cs c (indentOf l) = q at hnp hok hrep
            obtain ⟨cs', r⟩ := q
            cases r with
            | panic => exact absurd rfl hnp
            | ok u =>
              simp only [reduceCtorEq, false_iff, not_and]
              intro _ h
              rcases owned he hcs h with ⟨t, p, qs, a, ht, hl, ha, rfl⟩ | ⟨c', _, hm, _⟩
              · exact hnf ht hl ha
              · have := hok.1 rfl; omega
            | err er =>
              simp only [ne_eq, reduceCtorEq, not_false_eq_true, true_and, Res.err.injEq]
              obtain ⟨g1, g2⟩ := hrep er rfl
              have her : er = ⟨namedLevel cs, indentOf l⟩ := by
                cases er; simp only at g1 g2; subst g1; rw [g2]; rfl
              subst her
              have hm : maxLevel (listing 1 cs) < indentOf l := by
                have : ¬(indentOf l ≤ maxLevel (listing 1 cs)) := fun h => by have := hok.2 h; simp [Res.isOk] at this
                omega
              constructor
              · rintro rfl; exact .deep he hcs hr hm
              · intro h
                rcases owned he hcs h with ⟨t, p, qs, a, ht, hl, ha, rfl⟩ | ⟨c', _, _, rfl⟩
                · exact absurd ha (hnf ht hl)
                · rfl

theorem loop_section_vars {ls : List Str} {n : Nat} :
    loop v vars n [] ls = .ok evs ↔ SectionReads v (CmdLineVars vars) (contentLines ls) evs := by
  rw [contentLines_eq]
  constructor
  · intro h
    have := loop_reads _ _ [] [] _ .nil h
    simp only [List.nil_append] at this
    exact this.mono fun _ _ => cmdLineVars_iff.2
  · intro h
    rw [loop_filter]
    simpa using reads_loop (h.mono fun _ _ => cmdLineVars_iff.1) n []

theorem events_vars_panics {s : Str} : (Events.parseVars v vars s : Res (LErr EvErr) (List (Event D))) = .panic ↔
    ∃ pre l post, ∃ evs : List (Event D), lines s = pre ++ l :: post ∧
      SectionReads v (CmdLineVars vars) (contentLines pre) evs ∧ LinePanicsVars v vars evs l := by
  unfold Events.parseVars
  rw [loop_panic]
  simp only [loop_section_vars, step_vars_panics]

theorem events_vars_fault {s : Str} {k : Nat} {e : EvErr} :
    (Events.parseVars v vars s : Res (LErr EvErr) (List (Event D))) = .err ⟨k, e⟩ ↔
    ∃ pre l post, ∃ evs : List (Event D), lines s = pre ++ l :: post ∧ pre.length = k ∧
      SectionReads v (CmdLineVars vars) (contentLines pre) evs ∧ ¬Blank l ∧ ¬LinePanicsVars v vars evs l ∧ LineFaultVars vars evs l e := by
  unfold Events.parseVars
  rw [loop_err]
  constructor
  · rintro ⟨pre, l, post, evs, h1, rfl, h2, h3⟩
    exact ⟨pre, l, post, evs, h1, by simp, loop_section_vars.1 h2, step_vars_fault.1 h3⟩
  · rintro ⟨pre, l, post, evs, h1, rfl, h2, h3⟩
    exact ⟨pre, l, post, evs, h1, by simp, loop_section_vars.2 h2, step_vars_fault.2 h3⟩

end

end Osu
