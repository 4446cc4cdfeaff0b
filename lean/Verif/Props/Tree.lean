/-
Properties of nested storyboard commands: C28, C29, C30, C54.
-/
import Verif.Proof.Tree
import Verif.Proof.Dec96

namespace Osu
open SB (Command listing)
open Ev (tryPush cmdsToStr)
variable {D : Type}

/-- C28: the commands of an event are printed depth first, one line each, with one blank per level; printing
never panics. -/
theorem C28_depth_first [DecLib D] (vars : List Variable) (cmds : List (Command D)) :
    cmdsToStr vars cmds =
      some (join ['\n'] ((listing 1 cmds).map fun x => List.replicate x.1 ' ' ++ x.2.toStrVars vars)) := by
  simp only [cmdsToStr, Ev.printCmds_eq, Option.map_some]; rfl

/-- A loop holding a trigger that holds a parameter command, then two further commands. -/
def treeExample : List (Command Dec96) :=
  [.mk (some 5) (.loop 2 [.mk none (.trigger .passing none none
      [.mk none (.parameter .linear none .imageFlipVertical [])]),
    .mk none (.parameter .linear none .imageFlipHorizontal [])]),
   .mk none (.parameter .linear none .useAdditiveColourBlending [])]

example : cmdsToStr [] treeExample = some c!" L,5,2\n  T,Passing\n   P,0,,,V\n  P,0,,,H\n P,0,,,A" := by decide

/-- C29: pushing the depth-first listing of any commands, one after the other, onto no commands rebuilds them. -/
theorem C29_rebuild (cmds : List (Command D)) : pushAll [] (listing 1 cmds) = some cmds := by
  rw [Ev.pushAll_listing, List.nil_append]

example (a b : Command D) : pushAll [] (listing 1 [a, b]) = some [a, b] := C29_rebuild _

/-- C29: after commands already there, the listing adds exactly the listed commands. -/
theorem C29_rebuild_after (cmds before : List (Command D)) :
    pushAll before (listing 1 cmds) = some (before ++ cmds) := Ev.pushAll_listing cmds before

example (a b c : Command D) : pushAll [c] (listing 1 [a, b]) = some [c, a, b] := C29_rebuild_after _ _

/-- C29: different nestings have different listings. -/
theorem C29_injective (cmds cmds' : List (Command D)) (h : listing 1 cmds = listing 1 cmds') : cmds = cmds' := by
  have := C29_rebuild cmds
  rw [h, C29_rebuild] at this
  exact (Option.some.inj this).symm

example : (listing 1 treeExample).map (·.1) = [1, 2, 3, 2, 1] := by decide

/-- C30: a push at an indentation of 1 or more never panics. -/
theorem C30_no_panic (cmds : List (Command D)) (cmd : Command D) (k : Nat) (hk : 1 ≤ k) :
    (tryPush cmds cmd k).2 ≠ .panic := Ev.tryPush_no_panic cmds cmd k hk

/-- C30: a refused push changes nothing. -/
theorem C30_refused (cmds : List (Command D)) (cmd : Command D) (k : Nat) (h : ∀ u, (tryPush cmds cmd k).2 ≠ .ok u) :
    (tryPush cmds cmd k).1 = cmds := by
  apply Ev.tryPush_err_same
  cases hr : (tryPush cmds cmd k).2 with
  | ok u => exact absurd hr (h u)
  | err e => rfl
  | panic => rfl

/-- C30: an accepted push puts the command at the end of the listing, at the level asked for, and leaves
everything before it as it was. -/
theorem C30_accepted (cmds : List (Command D)) (cmd : Command D) (k : Nat) (hk : 1 ≤ k)
    (h : (tryPush cmds cmd k).2 = .ok ()) :
    listing 1 (tryPush cmds cmd k).1 = listing 1 cmds ++ cmd.listing k := by
  apply Ev.tryPush_ok_listing cmd k cmds hk
  rw [h]; rfl

/-- C30: an indentation is accepted exactly when it is at most the level of the last command, or one more if
that command can hold commands. -/
theorem C30_iff (cmds : List (Command D)) (cmd : Command D) (k : Nat) (hk : 1 ≤ k) :
    (tryPush cmds cmd k).2 = .ok () ↔ k ≤ maxLevel (listing 1 cmds) := by
  rw [← Ev.tryPush_ok_iff cmd k cmds hk]
  cases (tryPush cmds cmd k).2 with
  | ok u => cases u; simp only [Res.isOk]
  | err e => simp only [Res.isOk, reduceCtorEq, Bool.false_eq_true]
  | panic => simp only [Res.isOk, reduceCtorEq, Bool.false_eq_true]

private def par : Command Dec96 := .mk none (.parameter .linear none .imageFlipVertical [])

/-- After `treeExample` only the level 1 is free; after its first command the levels 1 and 2. -/
example : (tryPush treeExample par 4).2 ≠ .panic := C30_no_panic _ _ 4 (by decide)

example : (tryPush treeExample par 2).1 = treeExample :=
  C30_refused _ _ 2 fun u h => by
    have := (C30_iff treeExample par 2 (by decide)).1 (by cases u; exact h)
    revert this
    decide

example : listing 1 (tryPush (treeExample.take 1) par 2).1 = listing 1 (treeExample.take 1) ++ par.listing 2 :=
  C30_accepted _ _ 2 (by decide) ((C30_iff _ _ 2 (by decide)).2 (by decide))

/-- C30: an indentation of 0 after a first command reaches `unreachable!`. -/
theorem C30_zero_panics (cmds : List (Command D)) (cmd : Command D) (h : cmds ≠ []) :
    (tryPush cmds cmd 0).2 = .panic := by
  rcases List.eq_nil_or_concat cmds with rfl | ⟨cs, x, rfl⟩
  · exact absurd rfl h
  · rw [List.concat_eq_append, tryPush, if_neg (by decide), Ev.getLast?_snoc]
    simp only [Nat.zero_sub, Ev.pushLoop]

example : maxLevel (listing 1 treeExample) = 1 ∧
    maxLevel (listing 1 ([.mk (some 5) (.loop 2 [.mk none (.loop 3 [])])] : List (Command Dec96))) = 3 := by decide

/-- C54: what a refused push reports: the indentation asked for, and as the expected one 1, or the level of the
last command minus one if the last command can hold commands. -/
theorem C54_report (cmds : List (Command D)) (cmd : Command D) (k : Nat) (e : Ev.PushErr)
    (h : (tryPush cmds cmd k).2 = .err e) :
    e.got = k ∧ e.expected = match (listing 1 cmds).getLast? with
      | none => 1
      | some (l, c) => if c.Holds then l - 1 else 1 := Ev.tryPush_reported cmds cmd k e h

/-- C54: if the last command cannot hold commands, the reported expectation would be accepted. -/
theorem C54_usable (cmds : List (Command D)) (cmd : Command D) (k : Nat) (e : Ev.PushErr)
    (h : (tryPush cmds cmd k).2 = .err e)
    (hl : ∀ x, (listing 1 cmds).getLast? = some x → ¬ x.2.Holds) :
    (tryPush cmds cmd e.expected).2 = .ok () := by
  have h1 : e.expected = 1 := by
    rw [(C54_report cmds cmd k e h).2]
    cases hg : (listing 1 cmds).getLast? with
    | none => rfl
    | some x => simp only [if_neg (hl x hg)]
  rw [h1, Ev.tryPush_one]

example (e : Ev.PushErr) (h : (tryPush treeExample par 2).2 = .err e) : e.got = 2 ∧ e.expected = 1 ∧
    (tryPush treeExample par e.expected).2 = .ok () :=
  ⟨(C54_report _ _ _ _ h).1, (C54_report _ _ _ _ h).2, C54_usable _ _ _ _ h fun x hx => by cases hx; decide⟩

/-- C54: if the last command can hold commands, the greatest accepted indentation is two more than the reported
expectation. -/
theorem C54_two_less (cmds : List (Command D)) (cmd : Command D) (k : Nat) (e : Ev.PushErr)
    (h : (tryPush cmds cmd k).2 = .err e) (x : Nat × Command D) (hx : (listing 1 cmds).getLast? = some x)
    (hl : x.2.Holds) :
    (tryPush cmds cmd (e.expected + 2)).2 = .ok () ∧ (tryPush cmds cmd (e.expected + 3)).2 ≠ .ok () := by
  have hlev := Ev.listing_levels cmds x (List.mem_of_getLast? hx)
  have h1 := (C54_report cmds cmd k e h).2
  rw [hx] at h1
  simp only [if_pos hl] at h1
  have hm : maxLevel (listing 1 cmds) = x.1 + 1 := by simp only [maxLevel, hx, if_pos hl]
  rw [C30_iff _ _ _ (by omega), ne_eq, C30_iff _ _ _ (by omega), hm]
  omega

example : (tryPush ([.mk none (.loop 1 [])] : List (Command Dec96)) (.mk none (.loop 1 [])) 3).2 = .err ⟨0, 3⟩ := by
  decide

/-- C54 is false: after a loop without nested commands an indentation of 3 is refused with "expected 0"; 2 would
be accepted, and 0 panics. -/
theorem C54_false [DecLib D] : ∃ (cmds : List (Command D)) (cmd : Command D),
    (tryPush cmds cmd 3).2 = .err ⟨0, 3⟩ ∧ (tryPush cmds cmd 2).2 = .ok () ∧ (tryPush cmds cmd 0).2 = .panic :=
  ⟨[.mk none (.loop 1 [])], .mk none (.loop 1 []), rfl, rfl, rfl⟩

end Osu
