/-
Specification of the timing point line: what the comma separated pieces of a line mean in each version.
-/
import Verif.Model.TimingPoints
import Verif.Spec.Split

namespace Osu
variable {D : Type} [DecLib D]

/-- The time read from a piece of text: in versions 3 and 4 a number is 24 larger than written. -/
def TimeReads (v : Nat) (p : Str) (t : Decimal D) : Prop :=
  match DecLib.parse p with
  | none => t = .right p
  | some d => if 3 ≤ v ∧ v ≤ 4 then ∃ d', DecLib.add24 d = some d' ∧ t = .left d' else t = .left d

/-- The fields every version from 4 on has. -/
structure TPHead (v : Nat) (p b m ss si : Str) (t : TimingPoint D) : Prop where
  time : TimeReads v p t.time
  beatLength : t.beatLength = Decimal.ofStr b
  meter : parseI32 m = .ok t.meter
  sampleSet : TP.SampleSet.parse ss = .ok t.sampleSet
  sampleIndex : TP.SampleIndex.parse si = .ok t.sampleIndex

/-- `TPReads v ps t`: in version `v` the pieces `ps` of a line mean the timing point `t`. -/
inductive TPReads (v : Nat) : List Str → TimingPoint D → Prop
  /-- Up to version 3: a time, and everything after the first comma is the beat length. -/
  | old {p q : Str} {qs : List Str} {time : Decimal D} (hv : v ≤ 3) (ht : TimeReads v p time) :
      TPReads v (p :: q :: qs)
        ⟨time, Decimal.ofStr (join [','] (q :: qs)), 4, .normal, .index 1, ⟨100⟩, none, none⟩
  /-- Version 4 without volume. -/
  | four {p b m ss si : Str} {t : TimingPoint D} (hv : v = 4) (h : TPHead v p b m ss si t)
      (hvol : t.volume = ⟨100⟩) (hu : t.uninherited = none) (he : t.effects = none) :
      TPReads v [p, b, m, ss, si] t
  /-- From version 4: up to the volume. -/
  | six {p b m ss si vol : Str} {t : TimingPoint D} (hv : 4 ≤ v) (h : TPHead v p b m ss si t)
      (hvol : TP.Volume.parse vol = .ok t.volume) (hu : t.uninherited = none) (he : t.effects = none) :
      TPReads v [p, b, m, ss, si, vol] t
  /-- Version 5 only: up to the uninherited flag. -/
  | seven {p b m ss si vol u : Str} {t : TimingPoint D} {x : Bool} (hv : v = 5) (h : TPHead v p b m ss si t)
      (hvol : TP.Volume.parse vol = .ok t.volume) (hu : parseZeroOneBool u = .ok x)
      (hux : t.uninherited = some x) (he : t.effects = none) :
      TPReads v [p, b, m, ss, si, vol, u] t
  /-- From version 5: all fields. -/
  | eight {p b m ss si vol u e : Str} {t : TimingPoint D} {x : Bool} {ef : TP.Effects} (hv : 5 ≤ v)
      (h : TPHead v p b m ss si t) (hvol : TP.Volume.parse vol = .ok t.volume)
      (hu : parseZeroOneBool u = .ok x) (hux : t.uninherited = some x)
      (he : TP.Effects.parse e = .ok ef) (hex : t.effects = some ef) :
      TPReads v [p, b, m, ss, si, vol, u, e] t

/-! ### What can be written -/

/-- Characters allowed in a field that is text. -/
def fieldChar (c : Char) : Bool := !(c == ',' || c == '\n' || c == '\r')

/-- Characters allowed in a last field that is text. -/
def lastChar (c : Char) : Bool := !(c == '\n' || c == '\r')

/-- `fieldChar`, with carriage returns allowed if `cr` says so. -/
def fieldC (cr : Bool) (c : Char) : Bool := !(c == ',' || c == '\n' || (!cr && c == '\r'))

/-- `lastChar`, with carriage returns allowed if `cr` says so. -/
def lastC (cr : Bool) (c : Char) : Bool := !(c == '\n' || (!cr && c == '\r'))

/-- No line of the text ends in a carriage return: none comes before a line feed or at the end. Reading lines
would take it off. -/
def CleanEnds (s : Str) : Prop := ∀ a b, s = a ++ '\r' :: b → b ≠ [] ∧ b.head? ≠ some '\n'

/-- A time that can be written in version `v` and read back: text that is not a number, or a number the
decimal library can write; in versions 3 and 4 the number 24 below must exist and give the number back. -/
def TimeWritable (v : Nat) : Decimal D → Prop
  | .right s => (DecLib.parse s : Option D) = none ∧ ∀ c ∈ s, fieldChar c = true
  | .left d =>
    if 3 ≤ v ∧ v ≤ 4 then ∃ d', DecLib.sub24 d = some d' ∧ DecLib.canon d' ∧ DecLib.add24 d' = some d
    else DecLib.canon d

/-- A decimal that can be written with the characters `f` and read back. -/
def DecWritable (f : Char → Bool) : Decimal D → Prop
  | .right s => (DecLib.parse s : Option D) = none ∧ ∀ c ∈ s, f c = true
  | .left d => DecLib.canon d

/-- A sample index that fits into `i32` (and is not zero, as `NonZeroU32` demands). -/
def IndexWritable : TP.SampleIndex → Prop
  | .osuDefaultHitsounds => True
  | .index n => n ≠ 0 ∧ n.toNat ≤ 2147483647

/-- `Other` is only used for codes without a name. -/
def SampleSetNamed : TP.SampleSet → Prop
  | .other n => n ≠ 0 ∧ n ≠ 1 ∧ n ≠ 2 ∧ n ≠ 3
  | _ => True

/-- What version `v` can write down and read again (perhaps with fields replaced by defaults). -/
structure TPWritable (v : Nat) (t : TimingPoint D) : Prop where
  time : TimeWritable v t.time
  beatLength : DecWritable (if v ≤ 3 then lastChar else fieldChar) t.beatLength
  index : 4 ≤ v → IndexWritable t.sampleIndex
  named : 4 ≤ v → SampleSetNamed t.sampleSet
  tail5 : 5 ≤ v → t.uninherited = none → t.effects = none
  tail6 : 6 ≤ v → t.effects = none → t.uninherited = none

/-- The timing point with the fields version `v` does not write replaced by their defaults. -/
def tpDefaults (v : Nat) (t : TimingPoint D) : TimingPoint D :=
  if v ≤ 3 then ⟨t.time, t.beatLength, 4, .normal, .index 1, ⟨100⟩, none, none⟩
  else if v = 4 then { t with volume := ⟨100⟩, uninherited := none, effects := none }
  else t

/-- What version `v` can write down without loss. -/
structure TPExpressible (v : Nat) (t : TimingPoint D) : Prop extends TPWritable v t where
  upTo3 : v ≤ 3 → t.meter = 4 ∧ t.sampleSet = .normal ∧ t.sampleIndex = .index 1
  upTo4 : v ≤ 4 → t.volume = ⟨100⟩ ∧ t.uninherited = none ∧ t.effects = none

/-- The panic condition: in versions 3 and 4 the time, the text before the first comma, is a number that
cannot be increased by 24. -/
def TimeOverflows (D : Type) [DecLib D] (v : Nat) (p : Str) : Prop :=
  3 ≤ v ∧ v ≤ 4 ∧ ∃ d : D, DecLib.parse p = some d ∧ DecLib.add24 d = none

end Osu
