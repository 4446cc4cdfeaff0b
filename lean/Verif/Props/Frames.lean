/-
C61: the file names of the frames of an animation.
-/
import Verif.Proof.Frames
import Verif.Proof.Dec96

namespace Osu
open SB

/-- The names of the frames exist exactly if the path has a file name; otherwise asking for them panics. -/
theorem C61_defined (path : Str) (n : Nat) : frameFileNames path n = none ↔ ¬∃ name, NamedPath path name := by
  constructor
  · rintro h ⟨name, hp⟩
    have hd : name ≠ c!".." := by cases hp; assumption
    obtain ⟨a, b, -, e⟩ := frames_slot (n := n) (pathFileName_iff.2 hp) hd
    rw [e] at h; cases h
  · intro h
    cases hp : pathFileName path with
    | none => unfold frameFileNames; rw [hp]
    | some name => exact absurd ⟨name, pathFileName_iff.1 hp⟩ h

example : frameFileNames c!"a/.." 2 = none ∧ ¬∃ name, NamedPath c!"a/.." name := ⟨by decide, (C61_defined _ 2).1 (by decide)⟩

/-- The names: the number of the frame, counted from 0, in front of the extension; the directory is left out. -/
theorem C61_names {path name a b : Str} (n : Nat) (hp : NamedPath path name) (hs : FrameSlot name a b) :
    frameFileNames path n = some ((List.range n).map fun i => a ++ natToStr i ++ b) := by
  have hd : name ≠ c!".." := by cases hp; assumption
  obtain ⟨a', b', h1, e⟩ := frames_slot (n := n) (pathFileName_iff.2 hp) hd
  obtain ⟨rfl, rfl⟩ := slot_unique h1 hs
  exact e

/-- A path has at most one name, and a name exactly one place for the number. -/
theorem C61_unique {path name name' : Str} (hp : NamedPath path name) (hp' : NamedPath path name') : name = name' := by
  have := (pathFileName_iff.2 hp).symm.trans (pathFileName_iff.2 hp')
  exact Option.some.inj this

theorem C61_slot {path name : Str} (hp : NamedPath path name) :
    ∃ a b, FrameSlot name a b ∧ ∀ a' b', FrameSlot name a' b' → a' = a ∧ b' = b := by
  have hd : name ≠ c!".." := by cases hp; assumption
  obtain ⟨a, b, h, -⟩ := frames_slot (n := 0) (pathFileName_iff.2 hp) hd
  exact ⟨a, b, h, fun a' b' h' => slot_unique h' h⟩

/-- As many names as frames, all of them different. -/
theorem C61_count {path : Str} {n : Nat} {l : List Str} (h : frameFileNames path n = some l) :
    l.length = n ∧ l.Nodup := by
  cases hp : pathFileName path with
  | none => unfold frameFileNames at h; rw [hp] at h; cases h
  | some name =>
    have hn := pathFileName_iff.1 hp
    have hd : name ≠ c!".." := by cases hn; assumption
    obtain ⟨a, b, -, e⟩ := frames_slot (n := n) hp hd
    rw [e] at h; cases h
    refine ⟨by simp, ?_⟩
    rw [List.Nodup, List.pairwise_map]
    refine List.nodup_range.imp ?_
    intro i j hij he
    simp only [List.append_assoc] at he
    exact hij (natToStr_inj (List.append_cancel_right (List.append_cancel_left he)))

example : NamedPath c!"sb/run.png" c!"run.png" ∧ FrameSlot c!"run.png" c!"run" c!".png" :=
  ⟨.mk (dir := c!"sb/") (name := c!"run.png") (tail := []) (.inr ⟨c!"sb", rfl⟩) (by decide) (by decide) (by decide) (by decide) .nil,
    .ext (stem := c!"run") (ext := c!"png") (by decide) (by decide)⟩
example : frameFileNames c!"sb/run.png" 3 = some [c!"run0.png", c!"run1.png", c!"run2.png"] := by decide
example : frameFileNames c!"sb/.hidden/." 2 = some [c!".hidden0", c!".hidden1"] := by decide
example : frameFileNames c!"a.b." 1 = some [c!"a.b0."] := by decide

/-- It is false that an animation always has frame file names: this one is read, and asking for them panics. -/
theorem C61_false : ∃ o : Object Dec96, Object.parse c!"Animation,Pass,Centre,,1,2,3,4,LoopOnce" = .ok o ∧
    ∃ d lt, o.objectType = .animation 3 d lt [] ∧ frameFileNames [] 3 = none :=
  ⟨_, by rfl, _, _, rfl, by decide⟩

/-- The quotes that paths usually have in a file count as part of the path, so the last one is in every name. -/
theorem C61_quotes : ∃ o : Object Dec96, Object.parse c!"Animation,Pass,Centre,\"sb/run.png\",1,2,2,4,LoopOnce" = .ok o ∧
    ∃ d lt p, o.objectType = .animation 2 d lt p ∧ frameFileNames p 2 = some [c!"run0.png\"", c!"run1.png\""] :=
  ⟨_, by rfl, _, _, _, rfl, by decide⟩

private theorem runPath : NamedPath c!"sb/run.png" c!"run.png" :=
  .mk (dir := c!"sb/") (name := c!"run.png") (tail := []) (.inr ⟨c!"sb", rfl⟩) (by decide) (by decide) (by decide) (by decide) .nil
private theorem runSlot : FrameSlot c!"run.png" c!"run" c!".png" := .ext (stem := c!"run") (ext := c!"png") (by decide) (by decide)

example : frameFileNames c!"sb/run.png" 12 = some ((List.range 12).map fun i => c!"run" ++ natToStr i ++ c!".png") :=
  C61_names 12 runPath runSlot
example (x : Str) (h : NamedPath c!"sb/run.png" x) : x = c!"run.png" := C61_unique h runPath
example : ∃ a b, FrameSlot c!"run.png" a b ∧ ∀ a' b', FrameSlot c!"run.png" a' b' → a' = a ∧ b' = b := C61_slot runPath
example : ([c!"run0.png", c!"run1.png"] : List Str).length = 2 ∧ [c!"run0.png", c!"run1.png"].Nodup :=
  C61_count (path := c!"sb/run.png") (by decide)

end Osu
