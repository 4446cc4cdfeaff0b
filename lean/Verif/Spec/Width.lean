/-
Which values a build with a smaller `usize` can hold. `m` is the largest `usize`.
-/
import Verif.Model.HitObjects

namespace Osu

/-- The largest `usize` of a target: Rust has targets of 16, 32 and 64 bits. -/
def IsUsizeMax (m : Nat) : Prop := 65535 ≤ m ∧ m ≤ 18446744073709551615

/-- A sample set that can be held: its number, if it is one without a name, is at most `m`. -/
def setFits (m : Nat) : HO.SampleSet → Prop
  | .other n => n.toNat ≤ m
  | _ => True

/-- A sample index that can be held. -/
def indexFits (m : Nat) : HO.SampleIndex → Prop
  | .index n => n.toNat ≤ m
  | .timingPoint => True

/-- A hit sample that can be held. -/
def sampleFits (m : Nat) (h : HO.HitSample) : Prop :=
  setFits m h.normalSet ∧ setFits m h.additionSet ∧ indexFits m h.index

/-- An edge set that can be held. -/
def edgeFits (m : Nat) (e : HO.EdgeSet) : Prop := setFits m e.normalSet ∧ setFits m e.additionSet

/-- The edge sets of an object; only sliders have any. -/
def HitObject.edges {D : Type} (o : HitObject D) : List HO.EdgeSet :=
  match o.params with
  | .slider p => p.edgeSets
  | _ => []

/-- A hit object that can be held: its hit sample and its edge sets can. -/
def objectFits {D : Type} (m : Nat) (o : HitObject D) : Prop :=
  (∀ h, o.hitsample = some h → sampleFits m h) ∧ ∀ e ∈ o.edges, edgeFits m e

end Osu
