/-
C40, continued: the text of the storyboard of a file, and storyboards appended one after the other.
-/
import Verif.Props.File
import Verif.Props.Osb

namespace Osu
open SB Ev

section
variable {D : Type} [DecLib D] [UniLib]

/-- Before version 14 there is no text of the storyboard, and appending one (whatever its text) leaves none. -/
theorem C40_old (f : OsuFile D) (h : f.version < 14) (s : Str) :
    f.osbToStr = some none ∧ f.appendOsb s = ({ f with osb := none }, .ok ()) := by
  constructor
  · unfold OsuFile.osbToStr
    cases f.osb with
    | none => rfl
    | some o => exact (C39_old h s o).2
  · unfold OsuFile.appendOsb
    rw [(C39_old (D := D) h s ⟨none, none⟩).1]

/-- From version 14 on, the text of the storyboard of a file, appended to any file of that version, gives that file the
storyboard, with quotes around the paths that need them, and changes nothing else. Without storyboard there is no text. -/
theorem C40_round_trip {f : OsuFile D} (hv : 14 ≤ f.version) :
    (f.osb = none → f.osbToStr = some none) ∧
    ∀ o, f.osb = some o → OsbWritable f.version o → ∃ s, f.osbToStr = some (some s) ∧
      ∀ g : OsuFile D, g.version = f.version →
        g.appendOsb s = ({ g with osb := some { o with events := o.events.map (List.map quoted) } }, .ok ()) := by
  refine ⟨fun h => by unfold OsuFile.osbToStr; rw [h], fun o ho hw => ?_⟩
  obtain ⟨s, h1, h2⟩ := C39_round_trip hv hw
  refine ⟨s, by unfold OsuFile.osbToStr; rw [ho]; exact h1, fun g hg => ?_⟩
  unfold OsuFile.appendOsb
  rw [hg, h2]

/-- A storyboard replaces the one appended before, unless it is refused. -/
theorem C40_last (f : OsuFile D) (s t : Str) :
    (((f.appendOsb s).1.appendOsb t).2 = (f.appendOsb t).2) ∧
    ((f.appendOsb t).2 = .ok () → ((f.appendOsb s).1.appendOsb t).1 = (f.appendOsb t).1) ∧
    ((f.appendOsb t).2 ≠ .ok () → ((f.appendOsb s).1.appendOsb t).1 = (f.appendOsb s).1) := by
  have key : ∀ g : OsuFile D, (g.appendOsb s).1.version = g.version := by
    intro g; unfold OsuFile.appendOsb
    cases (Osb.parse g.version s : Res (LErr OsbErr) (Option (Osb D))) <;> rfl
  have e : ∀ g : OsuFile D, g.appendOsb t = match (Osb.parse g.version t : Res (LErr OsbErr) (Option (Osb D))) with
      | .ok o => ({ g with osb := o }, .ok ()) | .err e => (g, .err e) | .panic => (g, .panic) := fun _ => rfl
  rw [e, e f, key]
  cases (Osb.parse f.version t : Res (LErr OsbErr) (Option (Osb D))) with
  | err e => exact ⟨rfl, nofun, fun _ => rfl⟩
  | panic => exact ⟨rfl, nofun, fun _ => rfl⟩
  | ok o =>
    refine ⟨rfl, fun _ => ?_, fun h => absurd rfl h⟩
    unfold OsuFile.appendOsb
    cases (Osb.parse f.version s : Res (LErr OsbErr) (Option (Osb D))) <;> rfl

end

section
attribute [local instance] asciiUni

private def osbText : Str := c!"[Variables]\n$a=5\n\n[Events]\nSprite,Foreground,12,a.png,1,2\n S,0,320,,$a"

/-- Append to a new file and write: the same text. In version 13 nothing is kept. -/
example : ((OsuFile.new 14 : OsuFile Dec96).appendOsb osbText).1.osbToStr = some (some osbText) ∧
    ((OsuFile.new 13 : OsuFile Dec96).appendOsb osbText).1.osbToStr = some none := ⟨by rfl, by rfl⟩

/-- A refused storyboard after an accepted one. -/
example : (((OsuFile.new 14 : OsuFile Dec96).appendOsb osbText).1.appendOsb c!"[Events]\n0").1.osbToStr = some (some osbText) := by rfl

end

section
attribute [local instance] asciiUni

example : (OsuFile.new 13 : OsuFile Dec96).osbToStr = some none ∧
    (OsuFile.new 13 : OsuFile Dec96).appendOsb c!"[x" = ({ (OsuFile.new 13 : OsuFile Dec96) with osb := none }, .ok ()) :=
  C40_old _ (by decide) _

/-- The storyboard of one file, appended to another one. -/
example (g : OsuFile Dec96) (hg : g.version = 14) : ∃ s, ({ OsuFile.new 14 with osb := some osbExample } : OsuFile Dec96).osbToStr = some (some s) ∧
    g.appendOsb s = ({ g with osb := some { osbExample with events := osbExample.events.map (List.map quoted) } }, .ok ()) :=
  ((C40_round_trip (f := { OsuFile.new 14 with osb := some osbExample }) (by decide)).2 _ rfl osbExample_ok).imp fun _ h => ⟨h.1, h.2 g hg⟩

end

end Osu
