/-
The Events section: accepted exactly if its lines have the form given by `SectionReads`.
-/
import Verif.Proof.EventsRT

namespace Osu
open SB Ev Parser
variable {D : Type} [DecLib D]

theorem bare_bare {D : Type} (c : Command D) : c.bare.bare = c.bare := by
  obtain ⟨t, p⟩ := c; cases p <;> rfl

theorem bare_of_listing {D : Type} : ∀ (c : Command D) (k : Nat), ∀ x ∈ c.listing k, x.2.bare = x.2 := by
  intro c
  induction c using Command.rec' with
  | h t p ih =>
    intro k x hx
    rw [Command.listing_mk, CmdProps.listing_children] at hx
    rcases List.mem_cons.1 hx with rfl | hx
    · exact bare_bare _
    · cases hc : p.children with
      | none => rw [hc] at hx; cases hx
      | some cs =>
        rw [hc] at hx
        simp only at hx
        have : ∀ cs', (∀ c ∈ cs', c ∈ cs) → x ∈ listing (k + 1) cs' → x.2.bare = x.2 := by
          intro cs'
          induction cs' with
          | nil => intro _ h; rw [listing_nil] at h; cases h
          | cons c cs' ihl =>
            intro hsub h
            rw [listing_cons] at h
            rcases List.mem_append.1 h with h | h
            · exact ih cs hc c (hsub c (by simp)) (k + 1) x h
            · exact ihl (fun d hd => hsub d (by simp [hd])) h
        exact this cs (fun _ h => h) hx

theorem listing_bare {D : Type} (cs : List (Command D)) (k : Nat) : ∀ x ∈ listing k cs, x.2.bare = x.2 := by
  induction cs with
  | nil => intro x hx; rw [listing_nil] at hx; cases hx
  | cons c cs ih =>
    intro x hx
    rw [listing_cons] at hx
    rcases List.mem_append.1 hx with h | h
    · exact bare_of_listing c k x h
    · exact ih x h

/-- A command without nested commands lists as itself. -/
theorem listing_of_bare {D : Type} {c : Command D} (h : c.bare = c) (k : Nat) : c.listing k = [(k, c)] := by
  obtain ⟨t, p⟩ := c
  rw [Command.listing_mk, h, CmdProps.listing_children]
  cases p with
  | loop n cs =>
    have : cs = [] := by
      have h' : (Command.mk t (.loop n []) : Command D) = .mk t (.loop n cs) := h
      injection h' with _ h'; injection h' with _ h'; exact h'.symm
    subst this
    simp only [CmdProps.children, listing_nil]
  | trigger ty e g cs =>
    have : cs = [] := by
      have h' : (Command.mk t (.trigger ty e g []) : Command D) = .mk t (.trigger ty e g cs) := h
      injection h' with _ h'; injection h' with _ _ _ h'; exact h'.symm
    subst this
    simp only [CmdProps.children, listing_nil]
  | _ => rfl

/-! ### Cutting off the header -/

theorem sliceFrom_some {n : Nat} {s : Str} : (∃ t, sliceFrom n s = some t) ↔ ∃ a b, s = a ++ b ∧ byteLen a = n := by
  constructor
  · rintro ⟨t, h⟩
    induction s generalizing n with
    | nil =>
      cases n with
      | zero => exact ⟨[], [], rfl, rfl⟩
      | succ n => simp [sliceFrom] at h
    | cons c s ih =>
      cases n with
      | zero => exact ⟨[], c :: s, rfl, rfl⟩
      | succ n =>
        rw [sliceFrom] at h
        split at h
        · obtain ⟨a, b, rfl, hb⟩ := ih h
          refine ⟨c :: a, b, rfl, ?_⟩
          have : byteLen (c :: a) = c.utf8Size + byteLen a := by simp [byteLen]
          omega
        · cases h
  · rintro ⟨a, b, rfl, rfl⟩
    induction a with
    | nil => exact ⟨b, by cases b <;> simp [sliceFrom, byteLen]⟩
    | cons c a ih =>
      obtain ⟨t, ht⟩ := ih
      refine ⟨t, ?_⟩
      have e : byteLen (c :: a) = c.utf8Size + byteLen a := by simp [byteLen]
      have hc := c.utf8Size_pos
      rw [e, List.cons_append]
      obtain ⟨m, hm⟩ : ∃ m, c.utf8Size + byteLen a = m + 1 := ⟨c.utf8Size + byteLen a - 1, by omega⟩
      rw [hm, sliceFrom, if_pos (by omega)]
      have : m + 1 - c.utf8Size = byteLen a := by omega
      rw [this]; exact ht

theorem findIdx_takeWhile (l : Str) : l.findIdx? (· == ',') =
    if ',' ∈ l then some (l.takeWhile fun c => !(c == ',')).length else none := by
  induction l with
  | nil => rfl
  | cons c l ih =>
    by_cases hc : c = ','
    · subst hc; simp [List.findIdx?_cons]
    · have hc' : ¬ ',' = c := fun h => hc h.symm
      by_cases hm : ',' ∈ l
      · simp [List.findIdx?_cons, hc, ih, hm, hc']
      · simp [List.findIdx?_cons, hc, ih, hm, hc']

theorem withoutHeader_iff (l : Str) : (∃ t, withoutHeader l = some t) ↔ HeaderCuts l := by
  unfold withoutHeader HeaderCuts
  rw [findIdx_takeWhile]
  by_cases hm : ',' ∈ l
  · simp only [hm, if_true, true_implies]
    exact sliceFrom_some
  · simp [hm]

theorem cmdParse_nil [UniLib] {l : Str} {c : Command D} :
    cmdParse [] l = .ok c ↔ HeaderCuts l ∧ CmdReads (splitOnC ',' (l.dropWhile Command.isIndent)) c := by
  rw [← withoutHeader_iff, ← Command.command_reads, cmdParse]
  cases h : withoutHeader l with
  | none => simp
  | some t =>
    simp only [substVars]
    cases hp : (Command.parse l : Res CmdErr (Command D)) <;> simp [Res.mapErr]

/-! ### First lines -/

/-- The heads of the event lines. -/
theorem evReads_first {v : Nat} {s : Str} {e : Event D} (h : EvReads v (splitOnC ',' s) e) :
    ∃ c t, s = c :: t ∧ c ≠ '/' ∧ Command.isIndent c = false ∧ isWs c = false := by
  have key : ∀ (p : Str) (qs : List Str), splitOnC ',' s = p :: qs →
      (∃ c t, p = c :: t ∧ c ≠ '/' ∧ Command.isIndent c = false ∧ isWs c = false) →
      ∃ c t, s = c :: t ∧ c ≠ '/' ∧ Command.isIndent c = false ∧ isWs c = false := by
    rintro p qs hs ⟨c, t, rfl, h⟩
    obtain ⟨e, -, -⟩ := splitOnC_iff.1 hs
    exact ⟨c, t ++ preC ',' qs, e, h⟩
  generalize hs : splitOnC ',' s = ps at h key
  cases h with
  | background => exact key _ _ rfl ⟨'0', [], rfl, by decide⟩
  | video hh =>
    rename_i short _ _ _
    cases short <;> subst hh
    · exact key _ _ rfl ⟨'V', c!"ideo", rfl, by decide⟩
    · exact key _ _ rfl ⟨'1', [], rfl, by decide⟩
  | break_ hh =>
    rename_i short _ _ _ _
    cases short <;> subst hh
    · exact key _ _ rfl ⟨'B', c!"reak", rfl, by decide⟩
    · exact key _ _ rfl ⟨'2', [], rfl, by decide⟩
  | colourTransformation => exact key _ _ rfl ⟨'3', [], rfl, by decide⟩
  | spriteLegacy => exact key _ _ rfl ⟨'4', [], rfl, by decide⟩
  | animationLegacy => exact key _ _ rfl ⟨'5', [], rfl, by decide⟩
  | sampleLegacy => exact key _ _ rfl ⟨'6', [], rfl, by decide⟩
  | sprite => exact key _ _ rfl ⟨'S', c!"prite", rfl, by decide⟩
  | animation => exact key _ _ rfl ⟨'A', c!"nimation", rfl, by decide⟩
  | audioSample => exact key _ _ rfl ⟨'S', c!"ample", rfl, by decide⟩

theorem evReads_bare {v : Nat} {ps : List Str} {e : Event D} (h : EvReads v ps e) : cmdsOf e = [] := by
  cases h <;> rfl

theorem headReads_bare {v : Nat} {l : Str} {e : Event D} (h : HeadReads v l e) : cmdsOf e = [] := by
  cases h with
  | comment => rfl
  | event h => exact evReads_bare h

section
variable [UniLib] {v : Nat} {vars : List Variable}

/-- The command lines read with variables. -/
def CmdLineParses (vars : List Variable) (l : Str) (x : Nat × Command D) : Prop :=
  trim l ≠ [] ∧ 1 ≤ x.1 ∧ (l.takeWhile Command.isIndent).length = x.1 ∧ cmdParse vars l = .ok x.2 ∧ x.2.bare = x.2

theorem cmdReads_first {ps : List Str} {c : Command D} (h : CmdReads ps c) :
    (∃ p qs, ps = p :: qs ∧ ∃ x t, p = x :: t ∧ isWs x = false) ∧ c.bare = c := by
  cases h <;> exact ⟨⟨_, _, rfl, _, _, rfl, by decide⟩, rfl⟩

theorem cmdLineParses_nil {l : Str} {x : Nat × Command D} : CmdLineParses [] l x ↔ CmdLineReads l x := by
  unfold CmdLineParses CmdLineReads
  rw [cmdParse_nil]
  constructor
  · rintro ⟨-, h1, h2, ⟨h3, h4⟩, -⟩; exact ⟨h1, h2, h3, h4⟩
  · rintro ⟨h1, h2, h3, h4⟩
    refine ⟨?_, h1, h2, ⟨h3, h4⟩, (cmdReads_first h4).2⟩
    obtain ⟨⟨p, qs, hs, y, t, rfl, hy⟩, -⟩ := cmdReads_first h4
    obtain ⟨e, -, -⟩ := splitOnC_iff.1 hs
    rw [Ne, trim_eq_nil]
    intro hw
    have hm : y ∈ l := by
      have : y ∈ l.dropWhile (fun c => c == ' ' || c == '_') := by rw [e]; simp
      exact (List.dropWhile_sublist _).mem this
    have := hw y hm
    rw [hy] at this; cases this

/-- A line starts an event. -/
theorem step_headReads {l : Str} {e : Event D} (h : HeadReads v l e) (evs : List (Event D)) :
    trim l ≠ [] ∧ step v vars evs l = .ok (evs ++ [e]) := by
  cases h with
  | comment s =>
    refine ⟨?_, step_comment s evs⟩
    rw [Ne, trim_eq_nil]; intro h; exact absurd (h '/' (by simp)) (by decide)
  | event h =>
    have hp := event_reads.2 h
    obtain ⟨c, t, rfl, h1, h2, h3⟩ := evReads_first h
    have hb : trim (c :: t) ≠ [] := by
      rw [Ne, trim_eq_nil]; intro hw
      have := hw c (by simp); rw [h3] at this; cases this
    refine ⟨hb, ?_⟩
    rw [step, if_neg hb, stripPrefix_cons h1]
    have : (c :: t).takeWhile Command.isIndent = [] := by simp [h2]
    simp only [this, List.length_nil, Nat.lt_irrefl, gt_iff_lt, if_false, hp]

/-- The three outcomes of an accepted line. -/
theorem step_ok {evs evs' : List (Event D)} {l : Str} (h : step v vars evs l = .ok evs') :
    (trim l = [] ∧ evs' = evs) ∨
    (trim l ≠ [] ∧ ∃ e, HeadReads v l e ∧ evs' = evs ++ [e]) ∨
    (∃ es e cs cs' x u, evs = es ++ [e] ∧ e.commands = some cs ∧ CmdLineParses vars l x ∧ tryPush cs x.2 x.1 = (cs', .ok u) ∧
      evs' = es ++ [e.setCommands cs']) := by
  unfold step at h
  by_cases hb : trim l = []
  · rw [if_pos hb] at h; injection h with h; exact .inl ⟨hb, h.symm⟩
  · rw [if_neg hb] at h
    cases hs : stripPrefix c!"//" l with
    | some c =>
      rw [hs] at h
      simp only at h
      injection h with h
      refine .inr (.inl ⟨hb, .comment c, ?_, h.symm⟩)
      have : l = c!"//" ++ c := by
        unfold stripPrefix at hs
        split at hs
        · rename_i hp
          rw [List.isPrefixOf_iff_prefix] at hp
          obtain ⟨t, rfl⟩ := hp
          simp at hs; subst hs; rfl
        · cases hs
      rw [this]; exact .comment c
    | none =>
      rw [hs] at h
      simp only at h
      split at h
      · rename_i hi
        unfold stepCmd at h
        cases hl : evs.getLast? with
        | none => rw [hl] at h; cases h
        | some e =>
          rw [hl] at h
          simp only at h
          cases hc : e.commands with
          | none => rw [hc] at h; cases h
          | some cs =>
            rw [hc] at h
            simp only at h
            cases hp : (cmdParse vars l : Res EvErr (Command D)) with
            | err e => rw [hp] at h; cases h
            | panic => rw [hp] at h; cases h
            | ok c =>
              rw [hp] at h
              simp only at h
              obtain ⟨cs', r⟩ : ∃ x, tryPush cs c (l.takeWhile Command.isIndent).length = x := ⟨_, rfl⟩
              cases hr : tryPush cs c (l.takeWhile Command.isIndent).length with
              | mk cs' r =>
                rw [hr] at h
                cases r with
                | err e => cases h
                | panic => cases h
                | ok u =>
                  simp only at h
                  injection h with h
                  have hbare : c.bare = c := by
                    unfold cmdParse at hp
                    split at hp
                    · cases hp
                    · cases hq : (Command.parse (substVars _ l vars) : Res CmdErr (Command D)) with
                      | ok d =>
                        rw [hq] at hp
                        simp only [Res.mapErr] at hp
                        injection hp with hp
                        subst hp
                        exact (cmdReads_first (Command.command_reads.1 hq)).2
                      | err e => rw [hq] at hp; cases hp
                      | panic => rw [hq] at hp; cases hp
                  refine .inr (.inr ⟨evs.dropLast, e, cs, cs', ((l.takeWhile Command.isIndent).length, c), u, ?_, hc,
                    ⟨hb, hi, rfl, hp, hbare⟩, hr, h.symm⟩)
                  obtain ⟨ys, rfl⟩ := List.getLast?_eq_some_iff.1 hl
                  simp
      · split at h
        · rename_i e hp
          injection h with h
          exact .inr (.inl ⟨hb, e, .event (event_reads.1 hp), h.symm⟩)
        · cases h
        · cases h

theorem step_cmdLine {l : Str} {x : Nat × Command D} (ht : CmdLineParses vars l x) {e : Event D}
    {cs cs' : List (Command D)} {u : Unit} (hc : e.commands = some cs) (hp : tryPush cs x.2 x.1 = (cs', .ok u)) (evs : List (Event D)) :
    step v vars (evs ++ [e]) l = .ok (evs ++ [e.setCommands cs']) := by
  obtain ⟨hb, hk, hi, hcp, -⟩ := ht
  have hs : stripPrefix c!"//" l = none := by
    cases l with
    | nil => rfl
    | cons c l =>
      refine stripPrefix_cons ?_
      rintro rfl
      rw [show ('/' :: l).takeWhile Command.isIndent = [] from rfl] at hi
      simp at hi; omega
  rw [step, if_neg hb, hs]
  simp only [hi, if_pos (show x.1 > 0 from hk)]
  rw [stepCmd, getLast?_snoc]
  simp only [hc, hcp, hp, dropLast_snoc]

/-! ### The section -/

variable {R : Str → Nat × Command D → Prop}

omit [DecLib D] [UniLib] in
theorem CmdLines.snoc {ls : List Str} {xs : List (Nat × Command D)} (h : CmdLines R ls xs) {l : Str} {x : Nat × Command D}
    (hl : R l x) : CmdLines R (ls ++ [l]) (xs ++ [x]) := by
  induction h with
  | nil => exact .cons hl .nil
  | cons h _ ih => exact .cons h ih

omit [UniLib] in
theorem SectionReads.append {ls ls' : List Str} {evs evs' : List (Event D)} (h : SectionReads v R ls evs)
    (h' : SectionReads v R ls' evs') : SectionReads v R (ls ++ ls') (evs ++ evs') := by
  induction h with
  | nil => exact h'
  | cons hh hc _ ih =>
    rw [List.cons_append, List.append_assoc]
    exact .cons hh hc ih

omit [UniLib] in
theorem SectionReads.single {h : Str} {cls : List Str} {e : Event D} (hh : HeadReads v h (e.setCommands []))
    (hc : CmdLines R cls (listing 1 (cmdsOf e))) : SectionReads v R (h :: cls) [e] := by
  have := SectionReads.cons hh hc .nil
  rwa [List.append_nil] at this

omit [UniLib] in
theorem SectionReads.unsnoc {ls : List Str} {evs : List (Event D)} {e : Event D} (h : SectionReads v R ls (evs ++ [e])) :
    ∃ ls' hd cls, ls = ls' ++ hd :: cls ∧ SectionReads v R ls' evs ∧ HeadReads v hd (e.setCommands []) ∧
      CmdLines R cls (listing 1 (cmdsOf e)) := by
  induction evs generalizing ls with
  | nil =>
    cases h with
    | @cons h cls _ _ _ hh hc hs =>
      cases hs
      exact ⟨[], h, cls, by simp, .nil, hh, hc⟩
  | cons e' evs ih =>
    cases h with
    | @cons h cls _ _ _ hh hc hs =>
      obtain ⟨ls', hd, cls', rfl, h1, h2, h3⟩ := ih hs
      exact ⟨h :: (cls ++ ls'), hd, cls', by simp, .cons hh hc h1, h2, h3⟩

omit [DecLib D] [UniLib] in
theorem setCommands_of_nil {e : Event D} (h : cmdsOf e = []) : e.setCommands [] = e := by
  have := setCommands_self e; rwa [h] at this

theorem loop_reads : ∀ (ls : List Str) (n : Nat) (done : List Str) (acc evs : List (Event D)),
    SectionReads v (CmdLineParses vars) done acc → loop v vars n acc ls = .ok evs →
    SectionReads v (CmdLineParses vars) (done ++ ls.filter nonBlank) evs
  | [], n, done, acc, evs, hd, h => by
    rw [loop] at h; injection h with h; subst h; simpa using hd
  | l :: ls, n, done, acc, evs, hd, h => by
    rw [loop] at h
    cases hs : step v vars acc l with
    | err e => rw [hs] at h; cases h
    | panic => rw [hs] at h; cases h
    | ok acc' =>
      rw [hs] at h
      simp only at h
      rcases step_ok hs with ⟨hb, rfl⟩ | ⟨hb, e, hr, rfl⟩ | ⟨es, e, cs, cs', x, u, rfl, hc, hl, hp, rfl⟩
      · have : nonBlank l = false := by
          cases hn : nonBlank l with
          | false => rfl
          | true => exact absurd hb (nonBlank_iff.1 hn)
        rw [List.filter_cons_of_neg (by rw [this]; decide)]
        exact loop_reads ls _ _ _ _ hd h
      · rw [List.filter_cons_of_pos (nonBlank_iff.2 hb), show ∀ a b : List Str, a ++ l :: b = (a ++ [l]) ++ b from by simp]
        refine loop_reads ls _ _ _ _ (hd.append (.single ?_ ?_)) h
        · rw [setCommands_of_nil (headReads_bare hr)]; exact hr
        · rw [headReads_bare hr, listing_nil]; exact .nil
      · rw [List.filter_cons_of_pos (nonBlank_iff.2 hl.1), show ∀ a b : List Str, a ++ l :: b = (a ++ [l]) ++ b from by simp]
        refine loop_reads ls _ _ _ _ ?_ h
        obtain ⟨ls', hdl, cls, rfl, h1, h2, h3⟩ := hd.unsnoc
        rw [List.append_assoc, List.cons_append]
        refine h1.append (.single ?_ ?_)
        · rw [set_setCommands]; exact h2
        · have e1 : cmdsOf (e.setCommands cs') = cs' := by rw [cmdsOf, commands_set hc]; rfl
          have e2 : cmdsOf e = cs := by rw [cmdsOf, hc]; rfl
          have := tryPush_ok_listing x.2 x.1 cs hl.2.1 (by rw [hp]; rfl)
          rw [hp] at this
          simp only at this
          rw [e1, this, listing_of_bare hl.2.2.2.2, ← e2]
          exact h3.snoc hl

theorem loop_cmdLines {e : Event D} {ds : List (Command D)} (hc : e.commands = some ds) {cls : List Str}
    {L : List (Nat × Command D)} (h : CmdLines (CmdLineParses vars) cls L) :
    ∀ (n : Nat) (evs : List (Event D)) (cs cs' : List (Command D)), pushAll cs L = some cs' → ∀ rest, ∃ m,
      loop v vars n (evs ++ [e.setCommands cs]) (cls ++ rest) = loop v vars m (evs ++ [e.setCommands cs']) rest := by
  induction h with
  | nil =>
    intro n evs cs cs' hp rest
    simp only [pushAll, Option.some.injEq] at hp
    subst hp; exact ⟨n, rfl⟩
  | @cons l x ls xs hl _ ih =>
    intro n evs cs cs' hp rest
    obtain ⟨k, c⟩ := x
    rw [pushAll] at hp
    split at hp
    · rename_i ds' u hpush
      have hstep := step_cmdLine (v := v) hl (commands_set hc cs) hpush evs
      rw [set_setCommands] at hstep
      obtain ⟨m, hm⟩ := ih (n + 1) evs ds' cs' hp rest
      refine ⟨m, ?_⟩
      rw [List.cons_append, loop, hstep]
      exact hm
    · cases hp

theorem reads_loop {ls : List Str} {evs : List (Event D)} (h : SectionReads v (CmdLineParses vars) ls evs) :
    ∀ (n : Nat) (acc : List (Event D)), loop v vars n acc ls = .ok (acc ++ evs) := by
  induction h with
  | nil => intro n acc; rw [loop, List.append_nil]
  | @cons hd cls ls e evs hh hc _ ih =>
    intro n acc
    rw [loop, (step_headReads hh acc).2]
    simp only
    cases he : e.commands with
    | none =>
      rw [he, Option.getD_none, listing_nil] at hc
      cases hc
      rw [setCommands_none he, List.nil_append, ih]
      simp
    | some cs =>
      rw [he, Option.getD_some] at hc
      obtain ⟨m, hm⟩ := loop_cmdLines (v := v) he hc (n + 1) acc [] cs (pushAll_listing cs []) ls
      rw [hm, ih]
      have : e.setCommands cs = e := by
        have := setCommands_self e
        rwa [cmdsOf, he, Option.getD_some] at this
      rw [this]; simp

theorem loop_index (ls : List Str) : ∀ (n m : Nat) (acc evs : List (Event D)),
    loop v vars n acc ls = .ok evs → loop v vars m acc ls = .ok evs := by
  induction ls with
  | nil => intro n m acc evs h; exact h
  | cons l ls ih =>
    intro n m acc evs h
    rw [loop] at h ⊢
    cases hs : step v vars acc l with
    | ok acc' => rw [hs] at h; exact ih _ _ _ _ h
    | err e => rw [hs] at h; cases h
    | panic => rw [hs] at h; cases h

theorem loop_filter (ls : List Str) : ∀ (n : Nat) (acc evs : List (Event D)),
    loop v vars n acc ls = .ok evs ↔ loop v vars n acc (ls.filter nonBlank) = .ok evs := by
  induction ls with
  | nil => intro n acc evs; rfl
  | cons l ls ih =>
    intro n acc evs
    by_cases hb : trim l = []
    · have hn : nonBlank l = false := by
        cases hn : nonBlank l with
        | false => rfl
        | true => exact absurd hb (nonBlank_iff.1 hn)
      rw [List.filter_cons_of_neg (by rw [hn]; decide), loop, step, if_pos hb]
      simp only
      rw [ih (n + 1) acc evs]
      exact ⟨loop_index _ _ _ _ _, loop_index _ _ _ _ _⟩
    · rw [List.filter_cons_of_pos (nonBlank_iff.2 hb), loop, loop]
      cases hs : step v vars acc l with
      | ok acc' => exact ih _ _ _
      | err e => exact Iff.rfl
      | panic => exact Iff.rfl

/-- The whole section with variables. -/
theorem events_reads_vars {s : Str} {evs : List (Event D)} :
    Events.parseVars v vars s = .ok evs ↔ SectionReads v (CmdLineParses vars) ((lines s).filter nonBlank) evs := by
  unfold Events.parseVars
  constructor
  · intro h
    have := loop_reads _ _ [] [] _ .nil h
    simpa using this
  · intro h
    rw [loop_filter]
    simpa using reads_loop h 0 []

omit [DecLib D] [UniLib] in
theorem CmdLines.mono {R R' : Str → Nat × Command D → Prop} (hR : ∀ l x, R l x → R' l x) {ls : List Str}
    {xs : List (Nat × Command D)} (h : CmdLines R ls xs) : CmdLines R' ls xs := by
  induction h with
  | nil => exact .nil
  | cons h _ ih => exact .cons (hR _ _ h) ih

omit [UniLib] in
theorem SectionReads.mono {R R' : Str → Nat × Command D → Prop} (hR : ∀ l x, R l x → R' l x) {ls : List Str}
    {evs : List (Event D)} (h : SectionReads v R ls evs) : SectionReads v R' ls evs := by
  induction h with
  | nil => exact .nil
  | cons hh hc _ ih => exact .cons hh (hc.mono hR) ih

/-- The whole section. -/
theorem events_reads {s : Str} {evs : List (Event D)} :
    Events.parse v s = .ok evs ↔ SectionReads v CmdLineReads ((lines s).filter nonBlank) evs := by
  unfold Events.parse
  rw [events_reads_vars]
  exact ⟨fun h => h.mono fun _ _ => cmdLineParses_nil.1, fun h => h.mono fun _ _ => cmdLineParses_nil.2⟩

/-! ### What is read can be written -/

end

theorem posReads_writable {cr : Bool} {ps : List Str} {p : Option (Position D)} (h : PosReads ps p) (hps : ∀ q ∈ ps, AllC (fieldC cr) q) :
    PosWritableC cr p := by
  cases h with
  | none => trivial
  | some x y ys =>
    refine ⟨decWritable_ofStr (hps x (by simp)), decWritable_ofStr ?_⟩
    rw [join_eq_preC]
    exact (fieldC_last (hps y (by simp))).append (preC_lastC fun q hq => fieldC_last (hps q (by simp [hq])))

theorem volReads_writable {s : Str} {v : Volume} (h : VolReads s v) : v.val.toNat ≤ 100 := h.2

theorem originReads_writable {s : Str} {o : Origin} (h : OriginReads s o) : OriginWritable o := by
  cases h with
  | name => trivial
  | code => trivial
  | other _ hn => exact ⟨rfl, hn⟩

theorem evReads_writable {cr : Bool} {v : Nat} {ps : List Str} {e : Event D} (h : EvReads v ps e) (hps : ∀ q ∈ ps, AllC (fieldC cr) q) :
    writtenIn v e = true → HeadWritableC cr v e := by
  intro hv
  cases h with
  | @background t f ps n pos ht hp => exact ⟨hps f (by simp), posReads_writable hp fun q hq => hps q (by simp [hq])⟩
  | @video h t f ps n n' pos sh hh ht hn hp =>
    exact ⟨⟨n, hn⟩, hps f (by simp), posReads_writable hp fun q hq => hps q (by simp [hq])⟩
  | break_ hh ha hn hb hm => exact ⟨⟨_, hn⟩, ⟨_, hm⟩⟩
  | colourTransformation ht hn => exact ⟨of_decide_eq_true hv, ⟨_, hn⟩⟩
  | @spriteLegacy l o f ps la og pos hl ho hp =>
    exact ⟨hps f (by simp), posReads_writable hp fun q hq => hps q (by simp [hq])⟩
  | @animationLegacy l o f ps la og pos hl ho hp =>
    exact ⟨hps f (by simp), posReads_writable hp fun q hq => hps q (by simp [hq])⟩
  | @sampleLegacy t l f ps la vol hl hvt =>
    refine ⟨decWritable_ofStr (hps t (by simp)), hps f (by simp), ?_⟩
    intro vol' hvol
    cases hvt with
    | none => cases hvol
    | some h => cases hvol; exact h.2
  | @sprite l o f x y more og ho =>
    exact ⟨originReads_writable ho, decWritable_ofStr (hps x (by simp)), decWritable_ofStr (hps y (by simp)), hps f (by simp)⟩
  | @animation l o f x y c d ps og n delay lt ho hc hd hl =>
    exact ⟨originReads_writable ho, decWritable_ofStr (hps x (by simp)), decWritable_ofStr (hps y (by simp)),
      DecLib.parse_canon hd, hps f (by simp)⟩
  | @audioSample t l f ps n la vol ht hl hv' =>
    refine ⟨hps f (by simp), ?_⟩
    cases hv' with
    | none => show (100 : UInt8).toNat ≤ 100; decide
    | some h => exact h.2

theorem pieces_field {cr : Bool} {s : Str} (h : AllC (lastC cr) s) : ∀ p ∈ splitOnC ',' s, AllC (fieldC cr) p := by
  intro p hp c hc
  have h1 := Command.pieces_chars h p hp c hc
  have h2 := splitOnC_chars ',' s p hp c hc
  exact fieldC_iff.2 ⟨by simpa using h2, h1⟩

theorem headReads_writable {cr : Bool} {v : Nat} {l : Str} {e : Event D} (h : HeadReads v l e) (hl : AllC (lastC cr) l) :
    writtenIn v e = true → HeadWritableC cr v e := by
  cases h with
  | comment s => intro _; exact fun c hc => hl c (by simp [hc])
  | event h => exact evReads_writable h (pieces_field hl)

theorem headWritable_set {cr : Bool} {v : Nat} {e : Event D} {cs : List (Command D)} : HeadWritableC cr v (e.setCommands cs) ↔ HeadWritableC cr v e := by
  cases e <;> exact Iff.rfl

omit [DecLib D] in
theorem writtenIn_set {v : Nat} {e : Event D} {cs : List (Command D)} : writtenIn v (e.setCommands cs) = writtenIn v e := by
  cases e <;> rfl

section
variable [UniLib] {cr : Bool} {v : Nat}

theorem cmdLines_writable {ls : List Str} {xs : List (Nat × Command D)} (h : CmdLines CmdLineReads ls xs)
    (hl : ∀ l ∈ ls, AllC (lastC cr) l) : ∀ x ∈ xs, CmdWritableC cr x.2 := by
  induction h with
  | nil => intro x hx; cases hx
  | @cons l x ls xs h _ ih =>
    intro y hy
    rcases List.mem_cons.1 hy with rfl | hy
    · exact (Command.parse_writable (hl l (by simp)) (Command.command_reads.2 h.2.2.2)).1
    · exact ih (fun l' hl' => hl l' (by simp [hl'])) y hy

/-- Every event read from lines can be written, unless its kind is dropped. -/
theorem sectionReads_writable {ls : List Str} {evs : List (Event D)} (h : SectionReads v CmdLineReads ls evs)
    (hl : ∀ l ∈ ls, AllC (lastC cr) l) : ∀ e ∈ evs, writtenIn v e = true → EvWritableC cr v e := by
  induction h with
  | nil => intro e he; cases he
  | @cons hd cls ls e evs hh hc _ ih =>
    intro e' he' hv
    rcases List.mem_cons.1 he' with rfl | he'
    · refine ⟨?_, ?_⟩
      · exact headWritable_set.1 (headReads_writable hh (hl hd (by simp)) (by rw [writtenIn_set]; exact hv))
      · exact cmdLines_writable hc fun l hm => hl l (by simp [hm])
    · exact ih (fun l hm => hl l (by simp [hm])) e' he' hv

theorem cmdsRead_of_writable {e : Event D} (h : ∀ x ∈ listing 1 (cmdsOf e), CmdWritableC cr x.2) : CmdsRead cr [] e := by
  intro x hx
  have : cmdVars [] e = [] := by cases e <;> rfl
  rw [this]
  exact cmdText (h x hx) (listing_bare _ _ x hx) (listing_levels _ x hx)

/-- Printing and reading a section, if no printed line ends in a carriage return. -/
theorem events_round_trip_fits {evs : List (Event D)} (h : ∀ e ∈ evs, EvWritableC cr v e)
    (hE : cr = true → ∀ s, Events.shw v evs = some s → CleanEnds s) :
    ∃ s, Events.shw v evs = some s ∧ Events.parse v s = .ok (evs.map quoted) ∧
      ∃ ls, s = join ['\n'] ls ∧ (∀ l ∈ ls, LineOK l) ∧ (ls = [] ↔ evs = []) :=
  events_text (fun e he => ⟨(h e he).1, cmdsRead_of_writable (h e he).2⟩) hE

/-- Printing and reading a section. -/
theorem events_round_trip {evs : List (Event D)} (h : ∀ e ∈ evs, EvWritable v e) :
    ∃ s, Events.shw v evs = some s ∧ Events.parse v s = .ok (evs.map quoted) ∧
      ∃ ls, s = join ['\n'] ls ∧ (∀ l ∈ ls, LineOK l) ∧ (ls = [] ↔ evs = []) :=
  events_round_trip_fits h nofun

end

/-! ### Printing again -/

theorem shw_dropped {v : Nat} {vars : List Variable} {e : Event D} (h : writtenIn v e = false) :
    Event.shw v vars e = some none := by
  cases e <;> simp only [writtenIn, decide_eq_false_iff_not, Bool.true_eq_false] at h
  simp only [Event.shw, ColourTransformation.shw, if_neg h]

theorem shwVars_filter (v : Nat) (vars : List Variable) (evs : List (Event D)) :
    Events.shwVars v vars (evs.filter (writtenIn v)) = Events.shwVars v vars evs := by
  have : ∀ l : List (Event D), (l.mapM (Event.shw v vars)).map (List.filterMap id) =
      ((l.filter (writtenIn v)).mapM (Event.shw v vars)).map (List.filterMap id) := by
    intro l
    induction l with
    | nil => rfl
    | cons e l ih =>
      cases he : writtenIn v e with
      | true =>
        rw [List.filter_cons_of_pos he, List.mapM_cons, List.mapM_cons]
        cases Event.shw v vars e with
        | none => rfl
        | some o =>
          simp only [Option.bind_eq_bind, Option.bind_some, Option.pure_def]
          cases h1 : l.mapM (Event.shw v vars) <;> cases h2 : (l.filter (writtenIn v)).mapM (Event.shw v vars) <;>
            rw [h1, h2] at ih <;> simp at ih ⊢
          cases o <;> simp [ih]
      | false =>
        rw [List.filter_cons_of_neg (by rw [he]; decide), List.mapM_cons, shw_dropped he, ← ih]
        simp only [Option.bind_eq_bind, Option.bind_some, Option.pure_def]
        cases l.mapM (Event.shw v vars) <;> simp
  have h1 := this evs
  unfold Events.shwVars
  cases h2 : evs.mapM (Event.shw v vars) <;> cases h3 : (evs.filter (writtenIn v)).mapM (Event.shw v vars) <;>
    rw [h2, h3] at h1 <;> simp at h1 ⊢
  rw [h1]

theorem quotePath_idem (p : FilePath) : quotePath (quotePath p) = quotePath p := quotePath_of_plain (quotePath_plain p)

theorem shw_quoted (v : Nat) (vars : List Variable) (e : Event D) : Event.shw v vars (quoted e) = Event.shw v vars e := by
  cases e with
  | object o =>
    obtain ⟨l, og, p, ty, cs⟩ := o
    cases ty <;> simp only [quoted, pathOf, withPath, Event.shw, Object.shwCmd, path_toStr, quotePath_idem]
  | sampleLegacy x =>
    simp only [quoted, pathOf, withPath, Event.shw, SampleLegacy.shwCmd, path_toStr, quotePath_idem]
  | _ => simp only [quoted, pathOf, withPath, Event.shw, Background.shwCmd, Video.shwCmd, SpriteLegacy.shwCmd, AudioSample.shw,
    path_toStr, quotePath_idem]

theorem shwVars_quoted (v : Nat) (vars : List Variable) (evs : List (Event D)) :
    Events.shwVars v vars (evs.map quoted) = Events.shwVars v vars evs := by
  have : (evs.map quoted).mapM (Event.shw v vars) = evs.mapM (Event.shw v vars) := by
    induction evs with
    | nil => rfl
    | cons e evs ih => simp only [List.map_cons, List.mapM_cons, shw_quoted, ih]
  unfold Events.shwVars
  rw [this]

omit [DecLib D] in
theorem quoted_plain {e : Event D} (h : ∀ f, pathOf e = some f → PathPlain f) : quoted e = e := by
  unfold quoted
  cases hp : pathOf e with
  | none => rfl
  | some f =>
    simp only
    rw [quotePath_of_plain (h f hp)]
    cases e with
    | object o =>
      obtain ⟨l, og, p, ty, cs⟩ := o
      cases ty <;> (simp only [pathOf, Option.some.injEq] at hp; subst hp; rfl)
    | comment => cases hp
    | break_ => cases hp
    | colourTransformation => cases hp
    | _ => simp only [pathOf, Option.some.injEq] at hp; subst hp; rfl

/-- Saving an accepted section gives a text that is accepted and saved as the same text. -/
theorem events_stable [UniLib] {v : Nat} {s : Str} {evs : List (Event D)} (hs : ∀ l ∈ lines s, '\r' ∉ l)
    (h : Events.parse v s = .ok evs) :
    ∃ t, Events.shw v evs = some t ∧ Events.parse v t = .ok ((evs.filter (writtenIn v)).map quoted) ∧
      Events.shw v ((evs.filter (writtenIn v)).map quoted) = some t ∧
      ∃ ls, t = join ['\n'] ls ∧ (∀ l ∈ ls, LineOK l) ∧ (ls = [] ↔ evs.filter (writtenIn v) = []) := by
  rw [events_reads] at h
  have hl : ∀ l ∈ (lines s).filter nonBlank, AllC (lastC false) l := by
    intro l hl c hc
    have h1 := (List.mem_filter.1 hl).1
    have h2 : c ≠ '\n' := by
      have := lines_noLF s l h1 c hc
      simpa using this
    have h3 : c ≠ '\r' := by rintro rfl; exact hs l h1 hc
    simp [lastC, h2, h3]
  have hw := sectionReads_writable h hl
  obtain ⟨t, h1, h2, h3⟩ := events_round_trip (v := v) (evs := evs.filter (writtenIn v)) fun e he =>
    hw e (List.mem_filter.1 he).1 (List.mem_filter.1 he).2
  refine ⟨t, ?_, h2, ?_, h3⟩
  · rw [← h1]; exact (shwVars_filter v [] evs).symm
  · rw [← h1]; exact shwVars_quoted v [] _

end Osu
