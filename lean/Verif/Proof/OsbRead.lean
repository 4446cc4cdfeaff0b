/-
Command lines with references to variables.
-/
import Verif.Proof.Osb

namespace Osu
open SB Ev Parser

theorem sliceFrom_iff {n : Nat} {s t : Str} : sliceFrom n s = some t ↔ ∃ a, s = a ++ t ∧ byteLen a = n := by
  constructor
  · intro h
    induction s generalizing n with
    | nil =>
      cases n with
      | zero => rw [sliceFrom] at h; cases h; exact ⟨[], rfl, rfl⟩
      | succ n => simp [sliceFrom] at h
    | cons c s ih =>
      cases n with
      | zero => rw [sliceFrom] at h; cases h; exact ⟨[], rfl, rfl⟩
      | succ n =>
        rw [sliceFrom] at h
        split at h
        · obtain ⟨a, rfl, hb⟩ := ih h
          refine ⟨c :: a, rfl, ?_⟩
          have : byteLen (c :: a) = c.utf8Size + byteLen a := by simp [byteLen]
          omega
        · cases h
  · rintro ⟨a, rfl, rfl⟩
    induction a with
    | nil => cases t <;> simp [sliceFrom, byteLen]
    | cons c a ih =>
      have e : byteLen (c :: a) = c.utf8Size + byteLen a := by simp [byteLen]
      have hc := c.utf8Size_pos
      rw [e, List.cons_append]
      obtain ⟨m, hm⟩ : ∃ m, c.utf8Size + byteLen a = m + 1 := ⟨c.utf8Size + byteLen a - 1, by omega⟩
      rw [hm, sliceFrom, if_pos (by omega)]
      have : m + 1 - c.utf8Size = byteLen a := by omega
      rw [this]; exact ih

theorem withoutHeader_some {l b : Str} : withoutHeader l = some b ↔ AfterHeader l b := by
  unfold withoutHeader AfterHeader
  rw [findIdx_takeWhile]
  by_cases hm : ',' ∈ l
  · simp only [hm, if_true, true_and, not_true, false_and, false_or]
    exact sliceFrom_iff
  · simp [hm, eq_comm]

theorem afterHeader_sub {l b : Str} (h : AfterHeader l b) : ∀ c ∈ b, c ∈ l := by
  intro c hc
  rcases h with ⟨-, rfl⟩ | ⟨-, a, rfl, -⟩
  · exact hc
  · simp [hc]

theorem resolved_iff {b : Str} {vars : List Variable} {s t : Str} : Resolved b vars s t ↔ t = substVars b s vars := by
  induction vars generalizing s with
  | nil =>
    constructor
    · intro h; cases h; rfl
    · rintro rfl; exact .nil _
  | cons v vs ih =>
    rw [substVars]
    constructor
    · intro h
      cases h with
      | hit h ht hs => rw [if_pos (contains_iff.2 h), ← replaced_iff.1 ht]; exact ih.1 hs
      | miss h hs => rw [if_neg (fun hc => h (contains_iff.1 hc))]; exact ih.1 hs
    · intro h
      split at h
      · rename_i hc
        exact .hit (contains_iff.1 hc) (replaced_iff.2 rfl) (ih.2 h)
      · rename_i hc
        exact .miss (fun hh => hc (contains_iff.2 hh)) (ih.2 h)

variable {D : Type} [DecLib D] [UniLib]

theorem cmdParse_ok {vars : List Variable} {l : Str} {c : Command D} : cmdParse vars l = .ok c ↔
    ∃ b t, AfterHeader l b ∧ Resolved b vars l t ∧ CmdReads (splitOnC ',' (t.dropWhile Command.isIndent)) c := by
  simp only [resolved_iff, ← withoutHeader_some, cmdParse]
  cases h : withoutHeader l with
  | none => simp
  | some b =>
    simp only [Option.some.injEq, ← Command.command_reads]
    constructor
    · intro hp
      refine ⟨b, _, rfl, rfl, ?_⟩
      cases hq : (Command.parse (substVars b l vars) : Res CmdErr (Command D)) with
      | ok c' => rw [hq] at hp; cases hp; rfl
      | err e => rw [hq] at hp; cases hp
      | panic => rw [hq] at hp; cases hp
    · rintro ⟨_, _, rfl, rfl, hq⟩
      rw [hq]; rfl

theorem cmdLineVars_iff {vars : List Variable} {l : Str} {x : Nat × Command D} : CmdLineVars vars l x ↔ CmdLineParses vars l x := by
  unfold CmdLineVars CmdLineParses
  rw [cmdParse_ok]
  constructor
  · rintro ⟨h1, h2, b, t, h3, h4, h5⟩
    refine ⟨?_, h1, h2, ⟨b, t, h3, h4, h5⟩, (cmdReads_first h5).2⟩
    obtain ⟨⟨p, qs, hs, y, r, rfl, hy⟩, -⟩ := cmdReads_first h5
    obtain ⟨e, -, -⟩ := splitOnC_iff.1 hs
    rw [Ne, trim_eq_nil]
    intro hw
    have hd : '$' ∉ b := fun hm => absurd (hw _ (afterHeader_sub h3 _ hm)) (by decide)
    rw [resolved_iff, substVars_none hd] at h4
    subst h4
    have hm : y ∈ t := by
      have : y ∈ t.dropWhile (fun c => c == ' ' || c == '_') := by rw [e]; simp
      exact (List.dropWhile_sublist _).mem this
    have := hw y hm
    rw [hy] at this; cases this
  · rintro ⟨-, h1, h2, ⟨b, t, h3, h4, h5⟩, -⟩
    exact ⟨h1, h2, b, t, h3, h4, h5⟩

theorem events_vars_reads {v : Nat} {vars : List Variable} {s : Str} {evs : List (Event D)} :
    Events.parseVars v vars s = .ok evs ↔ SectionReads v (CmdLineVars vars) (contentLines (lines s)) evs := by
  rw [events_reads_vars, contentLines_eq]
  exact ⟨fun h => h.mono fun _ _ => cmdLineVars_iff.2, fun h => h.mono fun _ _ => cmdLineVars_iff.1⟩

end Osu
