/-
C15 to C18: timing points; C26 time offset; timing point parts of C25, C42, C50.
-/
import Verif.Proof.TimingPoints
import Verif.Proof.Dec96
import Verif.Spec.Bits

namespace Osu

section
variable {D : Type} [DecLib D]

/-! ## C15: one timing point -/

theorem tpDefaults_of_expressible {v : Nat} {t : TimingPoint D} (h : TPExpressible v t) : tpDefaults v t = t := by
  unfold tpDefaults
  split
  · rename_i h3
    obtain ⟨h1, h2, h3'⟩ := h.upTo3 h3
    obtain ⟨h4, h5, h6⟩ := h.upTo4 (by omega)
    cases t; simp_all
  · split
    · rename_i h4
      obtain ⟨h4, h5, h6⟩ := h.upTo4 (by omega)
      cases t; simp_all
    · rfl

/-- Every timing point that the version can express is read back unchanged. -/
theorem C15_round_trip {v : Nat} {t : TimingPoint D} (h : TPExpressible v t) :
    ∃ s, t.shw v = some s ∧ TimingPoint.parse v s = .ok t := by
  obtain ⟨s, h1, _, h2⟩ := TimingPoint.round_trip h.toTPWritable
  rw [tpDefaults_of_expressible h] at h2
  exact ⟨s, h1, h2⟩

/-- Every other timing point that the version can write is read back with the fields the version does not
have replaced by their defaults. -/
theorem C15_lossy {v : Nat} {t : TimingPoint D} (h : TPWritable v t) :
    ∃ s, t.shw v = some s ∧ TimingPoint.parse v s = .ok (tpDefaults v t) := by
  obtain ⟨s, h1, _, h2⟩ := TimingPoint.round_trip h
  exact ⟨s, h1, h2⟩

end

/-- A point with a value in every field. -/
def tpExample : TimingPoint Dec96 :=
  ⟨.left ⟨false, 1500, 0⟩, .left ⟨true, 50, 1⟩, 4, .other 9, .index 2, ⟨70⟩, some false, some ⟨9⟩⟩

theorem tpExample_ok : TPExpressible 14 tpExample where
  time := by
    simp only [TimeWritable, tpExample]
    rw [if_neg (by decide)]; exact (by decide : Dec96.Canon ⟨false, 1500, 0⟩)
  beatLength := (by decide : Dec96.Canon ⟨true, 50, 1⟩)
  index := fun _ => (by decide : (2 : UInt32) ≠ 0 ∧ (2 : UInt32).toNat ≤ 2147483647)
  named := fun _ => (by decide : (9 : Int32) ≠ 0 ∧ (9 : Int32) ≠ 1 ∧ (9 : Int32) ≠ 2 ∧ (9 : Int32) ≠ 3)
  tail5 := fun _ h => by cases h
  tail6 := fun _ h => by cases h
  upTo3 := fun h => absurd h (by decide)
  upTo4 := fun h => absurd h (by decide)

example : ∃ s, tpExample.shw 14 = some s ∧ TimingPoint.parse 14 s = .ok tpExample := C15_round_trip tpExample_ok

/-- In version 4 the volume and what follows it are not written. -/
example : ∃ s, tpExample.shw 4 = some s ∧
    TimingPoint.parse 4 s = .ok { tpExample with volume := ⟨100⟩, uninherited := none, effects := none } :=
  C15_lossy (v := 4) (t := tpExample)
    { time := by
        simp only [TimeWritable, tpExample]
        rw [if_pos (by decide)]
        exact ⟨⟨false, 1476, 0⟩, by decide, (by decide : Dec96.Canon ⟨false, 1476, 0⟩), by decide⟩
      beatLength := (by decide : Dec96.Canon ⟨true, 50, 1⟩)
      index := fun _ => (by decide : (2 : UInt32) ≠ 0 ∧ (2 : UInt32).toNat ≤ 2147483647)
      named := fun _ => (by decide : (9 : Int32) ≠ 0 ∧ (9 : Int32) ≠ 1 ∧ (9 : Int32) ≠ 2 ∧ (9 : Int32) ≠ 3)
      tail5 := fun h => absurd h (by decide)
      tail6 := fun h => absurd h (by decide) }

example : tpExample.shw 14 = some c!"1500,-5.0,4,9,2,70,0,9" := by decide
example : tpExample.shw 4 = some c!"1476,-5.0,4,9,2" := by decide

/-- A sample index above `i32::MAX` is accepted by the parser but written as a negative number, which is
then rejected. -/
theorem C15_false :
    ∃ (t : TimingPoint Dec96) (s : Str),
      TimingPoint.parse 14 c!"0,1,4,1,3000000000,100,1,0" = .ok t ∧ t.shw 14 = some s ∧
      TimingPoint.parse 14 s = (.err .invalidSampleIndex : Res TPErr (TimingPoint Dec96)) :=
  ⟨⟨.left ⟨false, 0, 0⟩, .left ⟨false, 1, 0⟩, 4, .normal, .index 3000000000, ⟨100⟩, some true, some ⟨0⟩⟩,
    c!"0,1,4,1,-1294967296,100,1,0", by decide, by decide, by decide⟩

/-- Effects without the uninherited flag are written as a line that is rejected. -/
theorem C15_false_effects_only :
    let t : TimingPoint Dec96 := ⟨.left ⟨false, 0, 0⟩, .left ⟨false, 1, 0⟩, 4, .normal, .index 1, ⟨100⟩, none, some ⟨1⟩⟩
    t.shw 14 = some c!"0,1,4,1,1,100,,1" ∧
      TimingPoint.parse 14 c!"0,1,4,1,1,100,,1" = (.err .invalidUninherited : Res TPErr (TimingPoint Dec96)) := by
  decide

/-- From version 6 on the flag without effects is written as a line that is rejected; such a value is
what version 5 reads from a line that ends after the flag. -/
theorem C15_false_flag_only :
    ∃ (t : TimingPoint Dec96) (s : Str),
      TimingPoint.parse 5 c!"0,1,4,1,1,100,1" = .ok t ∧ t.shw 14 = some s ∧
      TimingPoint.parse 14 s = (.err .missingEffects : Res TPErr (TimingPoint Dec96)) :=
  ⟨⟨.left ⟨false, 0, 0⟩, .left ⟨false, 1, 0⟩, 4, .normal, .index 1, ⟨100⟩, some true, none⟩,
    c!"0,1,4,1,1,100,1", by decide, by decide, by decide⟩

section
variable {D : Type} [DecLib D]

/-! ## C16: the section -/

theorem C16_round_trip {v : Nat} {l : List (TimingPoint D)} (h : ∀ t ∈ l, TPExpressible v t) :
    ∃ s, TimingPoints.shw v l = some s ∧ TimingPoints.parse v s = .ok l := by
  have := parseLines_printed (f := TimingPoint.parse v) (shw := TimingPoint.shw v) (g := id) (l := l) (by
    intro t ht
    obtain ⟨s, h1, h2, h3⟩ := TimingPoint.round_trip (h t ht).toTPWritable
    rw [tpDefaults_of_expressible (h t ht)] at h3
    exact ⟨s, h1, h2, h3⟩)
  rwa [List.map_id] at this

example : ∃ s, TimingPoints.shw 14 [tpExample, tpExample] = some s ∧ TimingPoints.parse 14 s = .ok [tpExample, tpExample] :=
  C16_round_trip (List.forall_mem_cons.2 ⟨tpExample_ok, List.forall_mem_cons.2 ⟨tpExample_ok, fun _ h => absurd h List.not_mem_nil⟩⟩)

theorem C16_lossy {v : Nat} {l : List (TimingPoint D)} (h : ∀ t ∈ l, TPWritable v t) :
    ∃ s, TimingPoints.shw v l = some s ∧ TimingPoints.parse v s = .ok (l.map (tpDefaults v)) :=
  parseLines_printed (f := TimingPoint.parse v) (shw := TimingPoint.shw v) (by
    intro t ht
    obtain ⟨s, h1, h2, h3⟩ := TimingPoint.round_trip (h t ht)
    exact ⟨s, h1, h2, h3⟩)

example : ∃ s, TimingPoints.shw 14 [tpExample] = some s ∧ TimingPoints.parse 14 s = .ok ([tpExample].map (tpDefaults 14)) :=
  C16_lossy (List.forall_mem_cons.2 ⟨tpExample_ok.toTPWritable, fun _ h => absurd h List.not_mem_nil⟩)

end

example : (TimingPoints.parse 14 c!"1500,-5.0,4,9,2,70,0,9\n0,1,4,1,0,100" : Res _ (List (TimingPoint Dec96))) =
    .ok [tpExample, ⟨.left ⟨false, 0, 0⟩, .left ⟨false, 1, 0⟩, 4, .normal, .osuDefaultHitsounds, ⟨100⟩, none, none⟩] := by
  decide

section
variable {D : Type} [DecLib D]

/-! ## C17: what a line means -/

/-- A line is accepted with value `t` exactly if its comma separated pieces mean `t` (`TPReads`). -/
theorem C17_line_meaning {v : Nat} {s : Str} {t : TimingPoint D} :
    TimingPoint.parse v s = .ok t ↔ TPReads v (splitOnC ',' s) t := TimingPoint.parse_iff

example : ∃ t : TimingPoint Dec96, TPReads 14 (splitOnC ',' c!"5,-50.5,3,2,1,70,0,9") t := ⟨_, C17_line_meaning.1 (by rfl)⟩

/-- A version 3 line: time and beat length, the rest are defaults. -/
theorem C17_v3_defaults {s : Str} {t : TimingPoint D} (h : TimingPoint.parse 3 s = .ok t) :
    t.meter = 4 ∧ t.sampleSet = .normal ∧ t.sampleIndex = .index 1 ∧ t.volume = ⟨100⟩ ∧ t.uninherited = none ∧
      t.effects = none := by
  have h' := C17_line_meaning.1 h
  generalize splitOnC ',' s = ps at h'
  cases h' with
  | old hv ht => exact ⟨rfl, rfl, rfl, rfl, rfl, rfl⟩
  | four hv => omega
  | six hv => omega
  | seven hv => omega
  | eight hv => omega

example (t : TimingPoint Dec96) (h : TimingPoint.parse 3 c!"100,500,3,2,1,60" = .ok t) : t.meter = 4 ∧ t.volume = ⟨100⟩ :=
  ⟨(C17_v3_defaults h).1, (C17_v3_defaults h).2.2.2.1⟩
example : (TimingPoint.parse 3 c!"100,500,3,2,1,60" : Res _ (TimingPoint Dec96)).isOk = true := by decide

/-- A version 4 line: the volume is 100 if the line ends before it, and there are no flags. -/
theorem C17_v4_volume {s : Str} {t : TimingPoint D} (h : TimingPoint.parse 4 s = .ok t) :
    t.uninherited = none ∧ t.effects = none ∧
      (((splitOnC ',' s).length = 5 ∧ t.volume = ⟨100⟩) ∨
       (∃ vol, (splitOnC ',' s)[5]? = some vol ∧ (splitOnC ',' s).length = 6 ∧ TP.Volume.parse vol = .ok t.volume)) := by
  have h' := C17_line_meaning.1 h
  generalize splitOnC ',' s = ps at h'
  cases h' with
  | old hv => omega
  | four hv _ hvol hu he => exact ⟨hu, he, .inl ⟨rfl, hvol⟩⟩
  | six hv _ hvol hu he => exact ⟨hu, he, .inr ⟨_, rfl, rfl, hvol⟩⟩
  | seven hv => omega
  | eight hv => omega

example (t : TimingPoint Dec96) (h : TimingPoint.parse 4 c!"100,500,3,2,1,60" = .ok t) :
    ∃ vol, (splitOnC ',' c!"100,500,3,2,1,60")[5]? = some vol ∧ TP.Volume.parse vol = .ok t.volume :=
  (C17_v4_volume h).2.2.elim (fun h => absurd h.1 (by decide)) fun ⟨vol, h1, _, h3⟩ => ⟨vol, h1, h3⟩
example : (TimingPoint.parse 4 c!"100,500,3,2,1,60" : Res _ (TimingPoint Dec96)).isOk = true := by decide

/-- From version 5 on the optional fields are absent exactly when the line ends before them. -/
theorem C17_tails {v : Nat} (hv : 5 ≤ v) {s : Str} {t : TimingPoint D} (h : TimingPoint.parse v s = .ok t) :
    6 ≤ (splitOnC ',' s).length ∧ (splitOnC ',' s).length ≤ 8 ∧
      (t.uninherited = none ↔ (splitOnC ',' s).length = 6) ∧ (t.effects = none ↔ (splitOnC ',' s).length ≤ 7) := by
  have h' := C17_line_meaning.1 h
  generalize splitOnC ',' s = ps at h'
  cases h' with
  | old hv => omega
  | four hv => omega
  | six _ _ _ hu he => simp [hu, he]
  | seven _ _ _ _ hux he => simp [hux, he]
  | eight _ _ _ _ hux _ hex => simp [hux, hex]

end

example : (TimingPoint.parse 3 c!"24,500" : Res _ (TimingPoint Dec96)) =
    .ok ⟨.left ⟨false, 48, 0⟩, .left ⟨false, 500, 0⟩, 4, .normal, .index 1, ⟨100⟩, none, none⟩ := by decide
example : (TimingPoint.parse 4 c!"24,500,3,2,0,60" : Res _ (TimingPoint Dec96)) =
    .ok ⟨.left ⟨false, 48, 0⟩, .left ⟨false, 500, 0⟩, 3, .soft, .osuDefaultHitsounds, ⟨60⟩, none, none⟩ := by decide
example : (TimingPoint.parse 5 c!"24,500,3,2,0,60,1" : Res _ (TimingPoint Dec96)) =
    .ok ⟨.left ⟨false, 24, 0⟩, .left ⟨false, 500, 0⟩, 3, .soft, .osuDefaultHitsounds, ⟨60⟩, some true, none⟩ := by decide

/-! ## C18: effect flags -/

/-- An operation on the effect flags. -/
inductive EffectOp where
  | setKiai (b : Bool)
  | setNoBarline (b : Bool)
  | clear
  deriving DecidableEq, Repr

def EffectOp.run (e : TP.Effects) : EffectOp → TP.Effects
  | setKiai b => e.setKiai b
  | setNoBarline b => e.setNoBarline b
  | clear => e.clearUnusedBits

/-- What an operation does to bit `i`. -/
def EffectOp.bit (i : Nat) : EffectOp → Option Bool
  | setKiai b => if i = 0 then some b else none
  | setNoBarline b => if i = 3 then some b else none
  | clear => if i = 0 ∨ i = 3 then none else some false

theorem testBit_consts (i : Nat) : Nat.testBit 1 i = decide (i = 0) ∧ Nat.testBit 8 i = decide (i = 3) ∧
    Nat.testBit 9 i = decide (i = 0 ∨ i = 3) ∧ (i < 32 → Nat.testBit 4294967294 i = decide (i ≠ 0)) ∧
    (i < 32 → Nat.testBit 4294967287 i = decide (i ≠ 3)) := by
  by_cases hi : i < 32
  · have : ∀ i < 32, Nat.testBit 1 i = decide (i = 0) ∧ Nat.testBit 8 i = decide (i = 3) ∧
      Nat.testBit 9 i = decide (i = 0 ∨ i = 3) ∧ (Nat.testBit 4294967294 i = decide (i ≠ 0)) ∧
      (Nat.testBit 4294967287 i = decide (i ≠ 3)) := by decide
    obtain ⟨h1, h2, h3, h4, h5⟩ := this i hi
    exact ⟨h1, h2, h3, fun _ => h4, fun _ => h5⟩
  · have big : ∀ n, n < 2 ^ 32 → Nat.testBit n i = false := fun n hn =>
      Nat.testBit_lt_two_pow (Nat.lt_of_lt_of_le hn (Nat.pow_le_pow_right (by omega) (by omega)))
    refine ⟨?_, ?_, ?_, fun h => absurd h hi, fun h => absurd h hi⟩
    · rw [big _ (by decide)]; symm; simp; omega
    · rw [big _ (by decide)]; symm; simp; omega
    · rw [big _ (by decide)]; symm; simp; omega

theorem EffectOp.run_bit (e : TP.Effects) (o : EffectOp) (i : Nat) :
    (o.run e).bits.toNat.testBit i = ((o.bit i).getD (e.bits.toNat.testBit i)) := by
  obtain ⟨h1, h2, h3, h4, h5⟩ := testBit_consts i
  have hbig : ¬ i < 32 → e.bits.toNat.testBit i = false := fun hi =>
    Nat.testBit_lt_two_pow (Nat.lt_of_lt_of_le e.bits.toNat_lt (Nat.pow_le_pow_right (by omega) (by omega)))
  have hn1 : (~~~ (1 : UInt32)).toNat = 4294967294 := by decide
  have hn8 : (~~~ (8 : UInt32)).toNat = 4294967287 := by decide
  have c1 : (1 : UInt32).toNat = 1 := rfl
  have c8 : (8 : UInt32).toNat = 8 := rfl
  have c9 : (9 : UInt32).toNat = 9 := rfl
  cases o with
  | setKiai b =>
    cases b
    · simp only [run, bit, TP.Effects.setKiai, UInt32.toNat_and, hn1, Nat.testBit_and, Bool.false_eq_true, if_false]
      by_cases hi : i < 32
      · rw [h4 hi]; by_cases h : i = 0 <;> simp [h]
      · rw [hbig hi]; by_cases h : i = 0 <;> simp [h]
    · simp only [run, bit, TP.Effects.setKiai, UInt32.toNat_or, c1, Nat.testBit_or, if_true, h1]
      by_cases h : i = 0 <;> simp [h]
  | setNoBarline b =>
    cases b
    · simp only [run, bit, TP.Effects.setNoBarline, UInt32.toNat_and, hn8, Nat.testBit_and, Bool.false_eq_true, if_false]
      by_cases hi : i < 32
      · rw [h5 hi]; by_cases h : i = 3 <;> simp [h]
      · rw [hbig hi]; by_cases h : i = 3 <;> simp [h]
    · simp only [run, bit, TP.Effects.setNoBarline, UInt32.toNat_or, c8, Nat.testBit_or, if_true, h2]
      by_cases h : i = 3 <;> simp [h]
  | clear =>
    simp only [run, bit, TP.Effects.clearUnusedBits, UInt32.toNat_and, c9, Nat.testBit_and, h3]
    by_cases h : i = 0 ∨ i = 3 <;> simp [h]

/-- C25: sample set numbers of timing points survive; the numbers 0 to 3 are exactly the ones with a name. -/
theorem C25_tp_sample_set (n m : Int32) : (TP.SampleSet.ofInt n).toInt = n ∧
    (TP.SampleSet.ofInt n = TP.SampleSet.ofInt m → n = m) ∧
    ((∃ k, TP.SampleSet.ofInt n = .other k) ↔ ¬ (0 ≤ n.toInt ∧ n.toInt ≤ 3)) := by
  have key : ∀ n, (TP.SampleSet.ofInt n).toInt = n := by
    intro n
    unfold TP.SampleSet.ofInt
    split
    · rename_i h; rw [h]; rfl
    · split
      · rename_i h; rw [h]; rfl
      · split
        · rename_i h; rw [h]; rfl
        · split
          · rename_i h; rw [h]; rfl
          · rfl
  refine ⟨key n, fun h => by rw [← key n, h, key m], ?_⟩
  have hv : ∀ k : Int32, n = k ↔ n.toInt = k.toInt := fun k => ⟨fun h => by rw [h], Int32.toInt_inj.1⟩
  have h0 := hv 0
  have h1 := hv 1
  have h2 := hv 2
  have h3 := hv 3
  rw [show (0 : Int32).toInt = 0 by decide] at h0
  rw [show (1 : Int32).toInt = 1 by decide] at h1
  rw [show (2 : Int32).toInt = 2 by decide] at h2
  rw [show (3 : Int32).toInt = 3 by decide] at h3
  unfold TP.SampleSet.ofInt
  split
  · rename_i h; have := h0.1 h; simp; omega
  · split
    · rename_i h; have := h1.1 h; simp; omega
    · split
      · rename_i h; have := h2.1 h; simp; omega
      · split
        · rename_i h; have := h3.1 h; simp; omega
        · rename_i a b c d
          rw [h0] at a; rw [h1] at b; rw [h2] at c; rw [h3] at d
          refine ⟨fun _ => by omega, fun _ => ⟨n, rfl⟩⟩

example : (TP.SampleSet.ofInt (-7)).toInt = -7 ∧ ∃ k, TP.SampleSet.ofInt (-7) = .other k :=
  ⟨(C25_tp_sample_set _ 0).1, (C25_tp_sample_set _ 0).2.2.2 (by decide)⟩

/-- C25: the text of a sample set is the number read, without plus sign and leading zeros. -/
theorem C25_tp_sample_set_text {s : Str} {x : TP.SampleSet} (h : TP.SampleSet.parse s = .ok x) :
    ∃ n, parseI32 s = .ok n ∧ x.toInt = n ∧ x.shw = i32ToStr n := by
  obtain ⟨n, h1, h2⟩ := Res.bind_eq_ok.1 h
  cases h2
  exact ⟨n, h1, (C25_tp_sample_set n n).1, by rw [TP.SampleSet.shw, (C25_tp_sample_set n n).1]⟩

example : ∃ n, parseI32 c!"-07" = .ok n ∧ (TP.SampleSet.other (-7)).toInt = n ∧ (TP.SampleSet.other (-7)).shw = i32ToStr n :=
  C25_tp_sample_set_text (by decide)

/-- C25: sample indices of timing points: distinct numbers are distinct indices; the text is the number exactly up to
`i32::MAX`, above it is negative and is refused. -/
theorem C25_tp_sample_index (n m : UInt32) : (TP.SampleIndex.ofU32 n = TP.SampleIndex.ofU32 m → n = m) ∧
    (n.toNat ≤ 2147483647 → (TP.SampleIndex.ofU32 n).shw = u32ToStr n ∧
      TP.SampleIndex.parse (TP.SampleIndex.ofU32 n).shw = .ok (.ofU32 n)) ∧
    (2147483647 < n.toNat → ∃ ds, (TP.SampleIndex.ofU32 n).shw = '-' :: ds ∧
      ∀ x, TP.SampleIndex.parse (TP.SampleIndex.ofU32 n).shw ≠ .ok x) := by
  refine ⟨?_, fun h => ?_, fun h => ?_⟩
  · unfold TP.SampleIndex.ofU32
    intro h
    split at h <;> split at h <;> simp_all
  · have hw : IndexWritable (TP.SampleIndex.ofU32 n) := by
      unfold TP.SampleIndex.ofU32
      split
      · trivial
      · rename_i h0; exact ⟨h0, h⟩
    refine ⟨?_, TP.sampleIndex_round hw⟩
    rw [← u32_i32_str h]
    unfold TP.SampleIndex.ofU32
    split
    · rename_i h0; rw [h0]; rfl
    · rfl
  · have hn : n ≠ 0 := by rintro rfl; simp at h
    have hi : n.toInt32.toInt < 0 := by
      have h1 : n.toInt32.toInt = (n.toNat : Int).bmod (2 ^ 32) := by
        rw [Int32.toInt, UInt32.toBitVec_toInt32, BitVec.toInt_eq_toNat_bmod]; rfl
      have h2 := n.toNat_lt
      rw [h1]
      unfold Int.bmod
      dsimp only
      split <;> omega
    have hs : (TP.SampleIndex.ofU32 n).shw = i32ToStr n.toInt32 := by
      rw [TP.SampleIndex.shw, TP.SampleIndex.ofU32, if_neg hn]; rfl
    rw [i32ToStr, intToStr, if_pos hi] at hs
    refine ⟨_, hs, fun x hx => ?_⟩
    rw [hs] at hx
    obtain ⟨m, hm, -⟩ := Res.bind_eq_ok.1 hx
    have hr := natToStr_ne_nil n.toInt32.toInt.natAbs
    simp [parseU32, parseUnsigned, hr, parseDigits, Res.bind, digitVal] at hm

example : (TP.SampleIndex.ofU32 3000000000).shw = c!"-1294967296" := by decide
example : (TP.SampleSet.ofInt (-7)).shw = c!"-7" := by decide

/-- After any sequence of operations every bit is what the last operation concerning it says: kiai is
bit 0, the barline flag is bit 3, and every other bit is as before, or off if the unused bits were
cleared. -/
theorem C18_bits (e : TP.Effects) (ops : List EffectOp) (i : Nat) :
    (ops.foldl EffectOp.run e).bits.toNat.testBit i = lastSet (e.bits.toNat.testBit i) (EffectOp.bit i) ops := by
  induction ops generalizing e with
  | nil => rfl
  | cons o os ih => rw [List.foldl_cons, ih, EffectOp.run_bit, lastSet]

example : ((([.setKiai true, .setNoBarline true, .setKiai false] : List EffectOp).foldl EffectOp.run ⟨5⟩).bits.toNat.testBit 0 = false) ∧
    (([.setKiai true, .setNoBarline true, .setKiai false] : List EffectOp).foldl EffectOp.run ⟨5⟩).bits.toNat.testBit 3 = true :=
  ⟨(C18_bits _ _ 0).trans (by decide), (C18_bits _ _ 3).trans (by decide)⟩

theorem testBit_and_eq (n : UInt32) (k : Nat) (hk : k < 32) :
    (n &&& UInt32.ofNat (2 ^ k) == UInt32.ofNat (2 ^ k)) = n.toNat.testBit k := by
  have hm : (UInt32.ofNat (2 ^ k)).toNat = 2 ^ k := by
    rw [UInt32.toNat_ofNat']
    exact Nat.mod_eq_of_lt (Nat.pow_lt_pow_right (by omega) hk)
  have : (n &&& UInt32.ofNat (2 ^ k) = UInt32.ofNat (2 ^ k)) ↔ n.toNat.testBit k = true := by
    rw [← UInt32.toNat_inj, UInt32.toNat_and, hm]
    constructor
    · intro h
      have := congrArg (Nat.testBit · k) h
      simpa [Nat.testBit_and, Nat.testBit_two_pow_self] using this
    · intro h
      apply Nat.eq_of_testBit_eq
      intro i
      rw [Nat.testBit_and, Nat.testBit_two_pow]
      by_cases hi : k = i
      · subst hi; simp [h]
      · simp [hi]
  by_cases h : n.toNat.testBit k = true
  · rw [h, beq_iff_eq, this]; exact h
  · rw [Bool.not_eq_true] at h
    rw [h, beq_eq_false_iff_ne, Ne, this, h]; decide

/-- The two queries read bits 0 and 3. -/
theorem C18_queries (e : TP.Effects) :
    e.kiai = e.bits.toNat.testBit 0 ∧ e.noBarline = e.bits.toNat.testBit 3 :=
  ⟨testBit_and_eq e.bits 0 (by decide), testBit_and_eq e.bits 3 (by decide)⟩

example : (⟨9⟩ : TP.Effects).kiai = true ∧ (⟨9⟩ : TP.Effects).noBarline = true ∧ (⟨6⟩ : TP.Effects).kiai = false :=
  ⟨(C18_queries _).1.trans (by decide), (C18_queries _).2.trans (by decide), (C18_queries _).1.trans (by decide)⟩

/-- The constructor sets exactly the requested flags. -/
theorem C18_new (k b : Bool) (i : Nat) :
    (TP.Effects.new k b).bits.toNat.testBit i = ((i == 0 && k) || (i == 3 && b)) := by
  obtain ⟨h1, h2, h3, -, -⟩ := testBit_consts i
  have e : (TP.Effects.new k b).bits.toNat = (match k, b with
    | true, true => 9 | true, false => 1 | false, true => 8 | false, false => 0) := by
    cases k <;> cases b <;> decide
  rw [e]
  cases k <;> cases b <;> simp [h1, h2, h3]
  · by_cases h : i = 3 <;> simp [h]
  · by_cases h : i = 0 <;> simp [h]
  · by_cases h : i = 0 <;> by_cases h' : i = 3 <;> simp [h, h']

example : ([EffectOp.setKiai true, .setNoBarline true, .setKiai false, .clear].foldl EffectOp.run ⟨0xF0⟩) = ⟨8⟩ := by
  decide

/-! ## C26: the 24 ms offset -/

section
variable {D : Type} [DecLib D]

/-- A written time is read back unchanged, in every version. -/
theorem C26_write_read {v : Nat} {x : Decimal D} (h : TimeWritable v x) :
    ∃ p, x.toStrShifted v = some p ∧ TimeReads v p x := by
  obtain ⟨p, h1, h2, _⟩ := h.print
  exact ⟨p, h1, h2⟩

/-- Reading a time and writing it again gives the number that was written (in the canonical spelling of the
decimal library), or the text itself if it is not a number. In versions 3 and 4 this holds where the decimal
library's `+ 24` is undone by `- 24`. -/
theorem C26_read_write {v : Nat} {p : Str} {x : Decimal D} (h : TimeReads v p x)
    (hex : ∀ d e : D, DecLib.parse p = some d → DecLib.add24 d = some e → DecLib.sub24 e = some d) :
    x.toStrShifted v = some (Decimal.ofStr p : Decimal D).toStr := by
  unfold TimeReads at h
  unfold Decimal.ofStr
  cases hp : (DecLib.parse p : Option D) with
  | none => rw [hp] at h; subst h; rfl
  | some d =>
    rw [hp] at h
    simp only at h
    by_cases hv : 3 ≤ v ∧ v ≤ 4
    · rw [if_pos hv] at h
      obtain ⟨e, h1, rfl⟩ := h
      simp only [Decimal.toStrShifted, Decimal.toStr]
      rw [if_pos hv, hex d e hp h1]; rfl
    · rw [if_neg hv] at h
      subst h
      simp only [Decimal.toStrShifted, Decimal.toStr]
      rw [if_neg hv]

/-- Version 4: the text `100` is read as 124 and written as `100` again. -/
example : ∃ p, (Decimal.left ⟨false, 124, 0⟩ : Decimal Dec96).toStrShifted 4 = some p ∧
    TimeReads 4 p (Decimal.left ⟨false, 124, 0⟩ : Decimal Dec96) :=
  C26_write_read (by
    simp only [TimeWritable]
    rw [if_pos (by decide)]
    exact ⟨⟨false, 100, 0⟩, by decide, (by decide : Dec96.Canon ⟨false, 100, 0⟩), by decide⟩)

example : (Decimal.left ⟨false, 124, 0⟩ : Decimal Dec96).toStrShifted 4 = some (Decimal.ofStr c!"0100" : Decimal Dec96).toStr :=
  C26_read_write (v := 4) (p := c!"0100")
    (by
      have hp : (DecLib.parse c!"0100" : Option Dec96) = some ⟨false, 100, 0⟩ := by decide
      simp only [TimeReads, hp]
      rw [if_pos (by decide)]
      exact ⟨_, by decide, rfl⟩)
    (by
      intro d e hd he
      have hp : (DecLib.parse c!"0100" : Option Dec96) = some ⟨false, 100, 0⟩ := by decide
      rw [hp] at hd
      cases hd
      have ha : (DecLib.add24 (⟨false, 100, 0⟩ : Dec96)) = some ⟨false, 124, 0⟩ := by decide
      rw [ha] at he
      cases he
      decide)

/-- Only versions 3 and 4 shift. -/
theorem C26_other_versions {v : Nat} (hv : ¬ (3 ≤ v ∧ v ≤ 4)) {p : Str} {x : Decimal D} :
    TimeReads v p x ↔ x = Decimal.ofStr p := by
  unfold TimeReads Decimal.ofStr
  cases (DecLib.parse p : Option D) with
  | none => rfl
  | some d => simp only [if_neg hv]

example : TimeReads 5 c!"0100" (Decimal.ofStr c!"0100" : Decimal Dec96) := (C26_other_versions (by decide)).2 rfl

/-- The time of a timing point is shifted this way: the value read from the first piece of the line. -/
theorem C26_timing_point {v : Nat} {s : Str} {t : TimingPoint D} (h : TimingPoint.parse v s = .ok t) :
    TimeReads v ((splitOnC ',' s).headD []) t.time := by
  have h' := TimingPoint.parse_iff.1 h
  generalize splitOnC ',' s = ps at h'
  cases h' with
  | old _ ht => exact ht
  | four _ h => exact h.time
  | six _ h => exact h.time
  | seven _ h => exact h.time
  | eight _ h => exact h.time

end

example : TimeReads (D := Dec96) 4 c!"-10.5" (.left ⟨false, 135, 1⟩) ∧
    (Decimal.left ⟨false, 135, 1⟩ : Decimal Dec96).toStrShifted 4 = some c!"-10.5" :=
  ⟨⟨_, (by decide : Dec96.add24 ⟨true, 105, 1⟩ = some ⟨false, 135, 1⟩), rfl⟩, by decide⟩

/-! ## Stability and panic freedom -/

section
variable {D : Type} [DecLib D]

theorem decWritable_ofStr {f : Char → Bool} {s : Str} (h : ∀ c ∈ s, f c = true) :
    DecWritable f (Decimal.ofStr s : Decimal D) := by
  unfold Decimal.ofStr
  cases hp : (DecLib.parse s : Option D) with
  | none => exact ⟨hp, h⟩
  | some d => exact DecLib.parse_canon hp

/-- A number that can be written as a time in version `w` and is read back. -/
def NumberFits (w : Nat) (d : D) : Prop :=
  if 3 ≤ w ∧ w ≤ 4 then ∃ d', DecLib.sub24 d = some d' ∧ DecLib.canon d' ∧ DecLib.add24 d' = some d else DecLib.canon d

/-- A time that was read in version `v` can be written in version `w`. -/
theorem timeWritable_at {v w : Nat} {p : Str} {x : Decimal D} (h : TimeReads v p x) (hp : ∀ c ∈ p, fieldChar c = true)
    (hn : ∀ d, x = .left d → NumberFits w d) : TimeWritable w x := by
  cases x with
  | left d => exact hn d rfl
  | right q =>
    unfold TimeReads at h
    cases hd : (DecLib.parse p : Option D) with
    | none => rw [hd] at h; cases h; exact ⟨hd, hp⟩
    | some d =>
      rw [hd] at h
      simp only at h
      split at h
      · obtain ⟨_, _, h⟩ := h; cases h
      · cases h

/-- What the decimal library has to satisfy for versions 3 and 4: `- 24` undoes `+ 24` on numbers that can
be read. (rust_decimal rounds when the sum needs more than 96 bits.) -/
def Offset24Exact (D : Type) [DecLib D] (v : Nat) : Prop :=
  3 ≤ v → v ≤ 4 → ∀ (p : Str) (d e : D), DecLib.parse p = some d → DecLib.add24 d = some e → DecLib.sub24 e = some d

theorem sampleSetNamed_parse {s : Str} {x : TP.SampleSet} (h : TP.SampleSet.parse s = .ok x) : SampleSetNamed x := by
  obtain ⟨n, _, h⟩ := Res.bind_eq_ok.1 h
  cases h
  unfold TP.SampleSet.ofInt
  split
  · trivial
  · split
    · trivial
    · split
      · trivial
      · split
        · trivial
        · rename_i h0 h1 h2 h3; exact ⟨h0, h1, h2, h3⟩

/-- Numbers of times that were read fit into the version they were read in. -/
theorem numberFits_of_reads {v : Nat} {p : Str} {d : D} (h : TimeReads v p (.left d)) (hex : Offset24Exact D v) : NumberFits v d := by
  unfold TimeReads at h
  unfold NumberFits
  cases hd : (DecLib.parse p : Option D) with
  | none => rw [hd] at h; cases h
  | some d' =>
    rw [hd] at h
    simp only at h
    by_cases hv : 3 ≤ v ∧ v ≤ 4
    · rw [if_pos hv] at h ⊢
      obtain ⟨e, h1, h2⟩ := h
      cases h2
      exact ⟨d', hex hv.1 hv.2 p d' d hd h1, DecLib.parse_canon hd, h1⟩
    · rw [if_neg hv] at h ⊢
      cases h
      exact DecLib.parse_canon hd

/-- What is read in version `v` can be written in version `w`, if the sample index fits into `i32`, the number of the time
fits, a beat length without quotes for its commas has none, and the two flags are both there or both missing. -/
theorem tpWritable_at {v w : Nat} {s : Str} {t : TimingPoint D} (h : TimingPoint.parse v s = .ok t)
    (hs : ∀ c ∈ s, lastChar c = true) (ht : ∀ p d, t.time = .left d → TimeReads v p t.time → NumberFits w d)
    (hi : 4 ≤ w → ∀ n, t.sampleIndex = .index n → n.toNat ≤ 2147483647)
    (hb : v ≤ 3 → 4 ≤ w → ∀ q, t.beatLength = .right q → ',' ∉ q)
    (h56 : v = 5 → 6 ≤ w → t.effects = none → t.uninherited = none) : TPWritable w t := by
  have h' := TimingPoint.parse_iff.1 h
  have hj := join_splitOnC ',' s
  have hch : ∀ p ∈ splitOnC ',' s, ∀ c ∈ p, fieldChar c = true := by
    intro p hp c hc
    have h1 := splitOnC_chars ',' s p hp c hc
    have h2 : c ∈ s := by
      rw [← hj]
      clear h h' hj
      generalize splitOnC ',' s = ps at hp
      induction ps with
      | nil => cases hp
      | cons q qs ih =>
        cases qs with
        | nil => simp at hp; subst hp; simpa [join] using hc
        | cons r rs =>
          rw [join_cons_cons]
          rcases List.mem_cons.1 hp with rfl | hp
          · simp [hc]
          · have := ih hp; simp [this]
    have h3 := hs c h2
    simp [fieldChar, lastChar] at h1 h3 ⊢
    exact ⟨⟨h1, h3.1⟩, h3.2⟩
  have hidx : ∀ si, TP.SampleIndex.parse si = .ok t.sampleIndex → 4 ≤ w → IndexWritable t.sampleIndex := by
    intro si hsi hv
    obtain ⟨n, _, h⟩ := Res.bind_eq_ok.1 hsi
    have h := (Res.ok.inj h).symm
    unfold TP.SampleIndex.ofU32 at h
    split at h
    · rw [h]; trivial
    · rename_i hn; have := hi hv n h; rw [h]; exact ⟨hn, this⟩
  have head : ∀ {p b m ss si : Str}, p ∈ splitOnC ',' s → b ∈ splitOnC ',' s → 4 ≤ v → TPHead v p b m ss si t →
      (5 ≤ w → t.uninherited = none → t.effects = none) → (6 ≤ w → t.effects = none → t.uninherited = none) →
      TPWritable w t := by
    intro p b m ss si hp hb hv h h5 h6
    refine ⟨timeWritable_at h.time (hch p hp) (fun d e => ht p d e h.time), ?_, hidx si h.sampleIndex,
      fun _ => sampleSetNamed_parse h.sampleSet, h5, h6⟩
    rw [h.beatLength]
    refine decWritable_ofStr fun c hc => ?_
    split
    · exact lastChar_of_field (hch b hb c hc)
    · exact hch b hb c hc
  generalize hps : splitOnC ',' s = ps at h' hch head hj
  cases h' with
  | @old p q qs time hv ht' =>
    refine ⟨timeWritable_at ht' (hch p (by simp)) (fun d e => ht p d e ht'), ?_, fun _ => ⟨by decide, by decide⟩, fun _ => trivial,
      fun _ _ => rfl, fun _ _ => rfl⟩
    have hl : ∀ c ∈ join [','] (q :: qs), lastChar c = true := fun c hc => hs c (by rw [← hj, join_cons_cons]; simp [hc])
    by_cases hw : w ≤ 3
    · rw [if_pos hw]; exact decWritable_ofStr hl
    · rw [if_neg hw]
      have hb := hb hv (by omega)
      revert hb
      show (∀ x, Decimal.ofStr (join [','] (q :: qs)) = .right x → ',' ∉ x) → DecWritable fieldChar (Decimal.ofStr (join [','] (q :: qs)))
      unfold Decimal.ofStr
      cases hd : (DecLib.parse (join [','] (q :: qs)) : Option D) with
      | some d => exact fun _ => DecLib.parse_canon hd
      | none =>
        intro hb
        refine ⟨hd, fun c hc => ?_⟩
        have h1 := hl c hc
        have h2 : c ≠ ',' := by rintro rfl; exact hb _ rfl hc
        simp [lastChar] at h1
        simp [fieldChar, h1, h2]
  | four hv h _ hu he =>
    exact head (by simp) (by simp) (by omega) h (fun _ _ => he) (fun _ _ => hu)
  | six hv h _ hu he =>
    exact head (by simp) (by simp) (by omega) h (fun _ _ => he) (fun _ _ => hu)
  | seven hv h _ _ hu he =>
    exact head (by simp) (by simp) (by omega) h (fun _ h => by rw [hu] at h; cases h) (h56 hv)
  | eight hv h _ _ hu _ he =>
    exact head (by simp) (by simp) (by omega) h (fun _ h => by rw [hu] at h; cases h)
      (fun _ h => by rw [he] at h; cases h)

/-- What is read can be written, if the sample index fits into `i32`. -/
theorem tpWritable_of_parse {v : Nat} {s : Str} {t : TimingPoint D} (h : TimingPoint.parse v s = .ok t)
    (hs : ∀ c ∈ s, lastChar c = true) (hex : Offset24Exact D v)
    (hi : 4 ≤ v → ∀ n, t.sampleIndex = .index n → n.toNat ≤ 2147483647) : TPWritable v t :=
  tpWritable_at h hs (fun _ _ e hr => numberFits_of_reads (e ▸ hr) hex) hi (fun _ _ => by omega) (fun _ _ => by omega)

theorem tpDefaults_shw (v : Nat) (t : TimingPoint D) : (tpDefaults v t).shw v = t.shw v := by
  unfold tpDefaults TimingPoint.shw TimingPoint.tailFields
  by_cases h3 : v ≤ 3
  · simp [h3, show ¬ v > 3 by omega, show ¬ v > 4 by omega]
  · by_cases h4 : v = 4
    · simp [h4]
    · simp [h3, h4]

/-- A TimingPoints text that is read, without stray carriage returns and with sample indices within `i32`:
writing it gives a text that is read again (with the version's defaults) and then writes to itself. -/
theorem C42_timing_points_stable {v : Nat} {s : Str} {l : List (TimingPoint D)} (h : TimingPoints.parse v s = .ok l)
    (hs : ∀ x ∈ lines s, '\r' ∉ x) (hex : Offset24Exact D v)
    (hi : 4 ≤ v → ∀ t ∈ l, ∀ n, t.sampleIndex = .index n → n.toNat ≤ 2147483647) :
    ∃ s', TimingPoints.shw v l = some s' ∧ TimingPoints.parse v s' = .ok (l.map (tpDefaults v)) ∧
      TimingPoints.shw v (l.map (tpDefaults v)) = some s' := by
  obtain ⟨s', h1, h2⟩ := C16_lossy (v := v) (l := l) (fun t ht => by
    obtain ⟨x, hx, _, hp⟩ := parseLines_mem h t ht
    refine tpWritable_of_parse hp (fun c hc => ?_) hex (fun h4 => hi h4 t ht)
    have h1 := lines_noLF s x hx c hc
    have h2 : c ≠ '\r' := by rintro rfl; exact hs x hx hc
    simp at h1
    simp [lastChar, h1, h2])
  refine ⟨s', h1, h2, ?_⟩
  rw [← h1]
  unfold TimingPoints.shw printLinesP
  congr 1
  rw [List.mapM_map]
  congr 1
  funext t
  exact tpDefaults_shw v t

/-- From version 5 on the values themselves are stable. -/
theorem C42_timing_points_value {v : Nat} (hv : 5 ≤ v) {s : Str} {l : List (TimingPoint D)}
    (h : TimingPoints.parse v s = .ok l) (hs : ∀ x ∈ lines s, '\r' ∉ x)
    (hi : ∀ t ∈ l, ∀ n, t.sampleIndex = .index n → n.toNat ≤ 2147483647) :
    ∃ s', TimingPoints.shw v l = some s' ∧ TimingPoints.parse v s' = .ok l := by
  obtain ⟨s', h1, h2, _⟩ := C42_timing_points_stable h hs (fun h3 h4 => by omega) (fun _ => hi)
  refine ⟨s', h1, ?_⟩
  have : l.map (tpDefaults v) = l := by
    conv => rhs; rw [← List.map_id l]
    congr 1
    funext t
    unfold tpDefaults
    rw [if_neg (by omega), if_neg (by omega)]; rfl
  rwa [this] at h2

/-- Two points with needless zeros and signs; an empty line between them. -/
example : ∃ s', TimingPoints.shw 14 [tpExample, { tpExample with uninherited := none, effects := none }] = some s' ∧
    TimingPoints.parse 14 s' = .ok [tpExample, { tpExample with uninherited := none, effects := none }] :=
  C42_timing_points_value (by decide) (s := c!"01500,-5.0,+4,09,2,70,0,9\n\n1500,-5.0,4,9,2,70") (by decide) (by decide)
    (by
      intro t ht n hn
      have ht : t = tpExample ∨ t = { tpExample with uninherited := none, effects := none } := by simpa using ht
      rcases ht with rfl | rfl <;> · cases hn; decide)

example : ∃ s', TimingPoints.shw 5 [tpExample] = some s' ∧ TimingPoints.parse 5 s' = .ok ([tpExample].map (tpDefaults 5)) ∧
    TimingPoints.shw 5 ([tpExample].map (tpDefaults 5)) = some s' :=
  C42_timing_points_stable (s := c!"01500,-5.0,+4,09,2,70,0,9\n") (by decide) (by decide) (fun _ h => absurd h (by decide))
    (by
      intro _ t ht n hn
      have ht : t = tpExample := by simpa using ht
      subst ht
      cases hn
      decide)

/-- A timing point line panics exactly if its time overflows, which only versions 3 and 4 can do. -/
theorem C50_timing_point_panic {v : Nat} {s : Str} :
    (TimingPoint.parse v s : Res TPErr (TimingPoint D)) = .panic ↔ TimeOverflows D v ((splitOnC ',' s).headD []) :=
  TimingPoint.parse_panic

example : TimeOverflows Dec96 3 c!"79228162514264337593543950335" :=
  (C50_timing_point_panic (s := c!"79228162514264337593543950335,1")).1 (by rfl)

theorem C50_timing_points_no_panic {v : Nat} {s : Str} (h : (TimingPoints.parse v s : Res _ (List (TimingPoint D))) = .panic) :
    ∃ l ∈ lines s, TimeOverflows D v ((splitOnC ',' l).headD []) := by
  obtain ⟨l, hl, hp⟩ := parseLines_panic h
  exact ⟨l, hl, TimingPoint.parse_panic.1 hp⟩

example : ∃ l ∈ lines c!"0,1,4,1,1\n79228162514264337593543950335,1,4,1,1", TimeOverflows Dec96 4 ((splitOnC ',' l).headD []) :=
  C50_timing_points_no_panic (D := Dec96) (by decide)

end

/-- In version 4 a volume that was read is lost when writing. -/
theorem C42_timing_points_v4_volume_lost :
    ∃ (t : TimingPoint Dec96) (s : Str), TimingPoint.parse 4 c!"0,1,4,1,1,60" = .ok t ∧ t.shw 4 = some s ∧
      ∃ t' : TimingPoint Dec96, TimingPoint.parse 4 s = .ok t' ∧ t'.volume ≠ t.volume :=
  ⟨⟨.left ⟨false, 24, 0⟩, .left ⟨false, 1, 0⟩, 4, .normal, .index 1, ⟨60⟩, none, none⟩, c!"0,1,4,1,1",
    by decide, by decide, ⟨.left ⟨false, 24, 0⟩, .left ⟨false, 1, 0⟩, 4, .normal, .index 1, ⟨100⟩, none, none⟩,
    by decide, by decide⟩

/-- The panic does occur in versions 3 and 4 (in the concrete decimal type). -/
example : (TimingPoints.parse 4 c!"79228162514264337593543950335,1,4,1,1" : Res _ (List (TimingPoint Dec96))) = .panic := by
  decide

end Osu
