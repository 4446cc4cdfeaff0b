/-
C97: how many lines a saved storyboard has.
-/
import Verif.Proof.SavedBoard

namespace Osu
open SB Ev

section
variable {D : Type} [DecLib D] [UniLib]

/-- C97: the text of a loaded storyboard that is saved has one line for each of its sections, variables, and of the events and commands that
the version writes, whatever the values of the variables are; all other lines are blank. -/
theorem C97_storyboard (v : Nat) (s t : Str) (o : Osb D) (h : Osb.parse v s = .ok (some o)) (ht : Osb.shw v o = some (some t)) :
    lineCount t = (o.variables.map fun vs => 1 + vs.length).getD 0 +
      (o.events.map fun es => 1 + eventEntries (es.filter (writtenIn v))).getD 0 := by
  have hv : 14 ≤ v := by
    refine Classical.byContradiction fun hn => ?_
    unfold Osb.parse at h
    rw [if_pos (by omega)] at h
    cases h
  obtain ⟨h1, h2⟩ := osb_read_writable (cr := true) nofun h
  have hvs : ∀ x ∈ o.variables.getD [], VarWritableC true x := by
    cases hvar : o.variables with
    | none => nofun
    | some vs => exact h1 vs hvar
  have hev : ∀ u, lineCount (c!"[Events]\n" ++ u) = 1 + lineCount u := fun u => lineCount_break c!"[Events]" u
  rcases osb_shw_some hv ht with ⟨he, rfl⟩ | ⟨es, u, he, hu, rfl⟩
  · rw [he]
    cases hvar : o.variables with
    | none => rfl
    | some vs => exact vars_board (h1 vs hvar)
  · have hu' := events_board hvs (h2 es he) hu
    rw [he]
    cases hvar : o.variables with
    | none => exact (hev u).trans (by rw [hu', Option.map_some, Option.getD_some]; simp)
    | some vs =>
      have := lineCount_two (c!"[Variables]\n" ++ join ['\n'] (vs.map Variable.shw)) (c!"[Events]\n" ++ u)
      rw [vars_board (h1 vs hvar), hev, hu'] at this
      refine Eq.trans (congrArg lineCount ?_) this
      simp [join]

end

section
attribute [local instance] asciiUni

/-- A storyboard with a variable that has no value. -/
abbrev emptyVar : Str := c!"[Variables]\n$a=\n[Events]\n4,3,1,a.png,320,240\n S,0,1,,2"

/-- The text that is written for it. -/
abbrev emptyVarSaved : Str := c!"[Variables]\n$a=\n\n[Events]\n4,3,1,a.png,320,240\n S,$a0$a,$a1$a,$a,$a2$a"

example : ∃ o : Osb Dec96, Osb.parse 14 emptyVar = .ok (some o) ∧ Osb.shw 14 o = some (some emptyVarSaved) ∧ lineCount emptyVarSaved = 2 + 1 + 2 := by
  obtain ⟨o, h1, h2, h3⟩ : ∃ o : Osb Dec96, Osb.parse 14 emptyVar = .ok (some o) ∧ Osb.shw 14 o = some (some emptyVarSaved) ∧
      (o.variables.map fun vs => 1 + vs.length).getD 0 + (o.events.map fun es => 1 + eventEntries (es.filter (writtenIn 14))).getD 0 = 5 :=
    ⟨_, rfl, rfl, rfl⟩
  exact ⟨o, h1, h2, (C97_storyboard 14 _ _ o h1 h2).trans h3⟩

end
end Osu
