/-
C19 to C24: hit objects; hit object parts of C25, C26, C42, C50.
-/
import Verif.Proof.HitObjectsPanic
import Verif.Proof.Dec96
import Verif.Spec.Bits
import Verif.Props.TimingPoints

namespace Osu
open HO

section
variable {D : Type} [DecLib D]

/-! ## C19: the type number -/

/-- The number of the bit that marks a kind. -/
def kindBit : HOParams D → Nat
  | .hitCircle => 0
  | .slider _ => 1
  | .spinner _ => 3
  | .hold _ => 7

omit [DecLib D] in
/-- The written number: the kind's bit, 4 for a new combo, and the skip count times 16. -/
theorem C19_encode {o : HitObject D} (h : o.comboSkip.val.toNat ≤ 7) :
    o.typeByte.toNat = 2 ^ kindBit o.params + (if o.newCombo then 4 else 0) + 16 * o.comboSkip.val.toNat := by
  rw [HitObject.typeByte_toNat h]
  cases o.params <;> rfl

/-- What is decoded from the type number `n` of a line: the kind is the first set bit of 0, 1, 3, 7 (one of
them is set), bit 2 is the new combo flag, bits 4 to 6 are the skip count. -/
theorem C19_decode {v : Nat} {s : Str} {o : HitObject D} (h : HitObject.parse v s = .ok o) :
    ∃ ty n, (splitOnC ',' s)[3]? = some ty ∧ parseI32 ty = .ok n ∧
      typeBit n (kindBit o.params) ∧ (∀ k ∈ [0, 1, 3, 7], k < kindBit o.params → ¬ typeBit n k) ∧
      (o.newCombo = true ↔ typeBit n 2) ∧
      (o.comboSkip.val.toNat : Int) = (n.toInt / 16) % 8 := by
  have h' := HitObject.parse_iff.1 h
  generalize splitOnC ',' s = ps at h'
  cases h' with
  | circle hh h0 hp =>
    refine ⟨_, _, rfl, hh.type, by rw [hp]; exact h0, ?_, hh.newCombo, hh.skip⟩
    rw [hp]; intro k _ hk; exact absurd hk (Nat.not_lt_zero _)
  | slider hh h0 h1 hp =>
    refine ⟨_, _, rfl, hh.type, by rw [hp]; exact h1, ?_, hh.newCombo, hh.skip⟩
    rw [hp]; intro k hk hlt
    have : k < 1 := hlt
    have : k = 0 := by omega
    subst this; exact h0
  | spinner hh h0 h1 h3 hp =>
    refine ⟨_, _, rfl, hh.type, by rw [hp]; exact h3, ?_, hh.newCombo, hh.skip⟩
    rw [hp]; intro k hk hlt
    have : k < 3 := hlt
    simp at hk
    rcases hk with rfl | rfl | rfl | rfl
    · exact h0
    · exact h1
    · omega
    · omega
  | hold hh h0 h1 h3 h7 hp =>
    refine ⟨_, _, rfl, hh.type, by rw [hp]; exact h7, ?_, hh.newCombo, hh.skip⟩
    rw [hp]; intro k hk hlt
    have : k < 7 := hlt
    simp at hk
    rcases hk with rfl | rfl | rfl | rfl
    · exact h0
    · exact h1
    · exact h3
    · omega

/-- Type number -1 has every bit: a circle with a new combo and seven skipped colours. -/
example : ∃ ty n, (splitOnC ',' c!"1,2,3,-1,0")[3]? = some ty ∧ parseI32 ty = .ok n ∧ typeBit n 0 ∧
    (7 : Int) = (n.toInt / 16) % 8 := by
  obtain ⟨ty, n, h1, h2, h3, _, _, h6⟩ := C19_decode (D := Dec96) (v := 14) (s := c!"1,2,3,-1,0")
    (o := ⟨⟨.left ⟨false, 1, 0⟩, .left ⟨false, 2, 0⟩⟩, .left ⟨false, 3, 0⟩, .hitCircle, true, ⟨7⟩, ⟨false, false, false, false⟩, none⟩)
    (by decide)
  exact ⟨ty, n, h1, h2, h3, h6⟩

/-- A line whose type number has none of the four bits is rejected. -/
theorem C19_unknown {v : Nat} {s ty : Str} {n : Int32} (h : (splitOnC ',' s)[3]? = some ty) (hn : parseI32 ty = .ok n)
    (hb : ∀ k ∈ [0, 1, 3, 7], ¬ typeBit n k) (o : HitObject D) : HitObject.parse v s ≠ .ok o := by
  intro ho
  obtain ⟨ty', n', h1, h2, h3, _⟩ := C19_decode ho
  rw [h] at h1; cases h1
  rw [hn] at h2; cases h2
  refine hb _ ?_ h3
  cases o.params <;> simp [kindBit]

/-- Type number 116 (new combo and all the combo skip bits) names no kind. -/
example (o : HitObject Dec96) : HitObject.parse 14 c!"1,2,3,116,0,B|1:1,1,100" ≠ .ok o :=
  C19_unknown (ty := c!"116") (n := 116) (by decide) (by decide)
    (fun k hk => by
      have : k = 0 ∨ k = 1 ∨ k = 3 ∨ k = 7 := by simpa using hk
      rcases this with rfl | rfl | rfl | rfl <;> unfold typeBit <;> decide) o

omit [DecLib D] in
/-- Encoding and decoding: the number written for an object is decoded to the same kind, flag and count. -/
theorem C19_round_trip {o : HitObject D} (h : o.comboSkip.val.toNat ≤ 7) :
    ∃ n : Int32, parseI32 (u8ToStr o.typeByte) = .ok n ∧ typeBit n (kindBit o.params) ∧
      (∀ k ∈ [0, 1, 3, 7], k ≠ kindBit o.params → ¬ typeBit n k) ∧ (o.newCombo = true ↔ typeBit n 2) ∧
      (o.comboSkip.val.toNat : Int) = (n.toInt / 16) % 8 := by
  obtain ⟨n, h1, h2⟩ := HitObject.parseI32_u8ToStr o.typeByte
  have he := C19_encode h
  refine ⟨n, h1, ?_⟩
  simp only [typeBit, h2, he]
  have hk : kindBit o.params = 0 ∨ kindBit o.params = 1 ∨ kindBit o.params = 3 ∨ kindBit o.params = 7 := by
    cases o.params <;> simp [kindBit]
  cases o.newCombo <;> rcases hk with hk | hk | hk | hk <;> rw [hk] <;>
    refine ⟨by simp; omega, ?_, by simp; omega, by simp; omega⟩ <;>
    (intro k hm hne; simp at hm; rcases hm with rfl | rfl | rfl | rfl <;> first | exact absurd rfl hne | (simp; omega))

end

/-- A slider with a value in every field. -/
def hoSlider : HitObject Dec96 :=
  { position := ⟨.left ⟨false, 100, 0⟩, .left ⟨false, 200, 0⟩⟩
    time := .left ⟨false, 1500, 0⟩
    params := .slider {
      curveType := .perfectCircle
      curvePoints := [⟨⟨.left ⟨false, 110, 0⟩, .left ⟨false, 215, 1⟩⟩⟩, ⟨⟨.left ⟨false, 120, 0⟩, .left ⟨true, 5, 0⟩⟩⟩]
      slides := 2
      length := .left ⟨false, 1405, 1⟩
      edgeSounds := [⟨false, true, false, false⟩, ⟨false, false, false, false⟩]
      edgeSoundsShort := false
      edgeSets := [⟨.normal, .soft⟩, ⟨.drum, .other 7⟩]
      edgeSetsShort := false }
    newCombo := true
    comboSkip := ⟨3⟩
    hitsound := ⟨false, false, true, false⟩
    hitsample := some ⟨.soft, .drum, .index 4, ⟨some 80⟩, c!"a,b.wav"⟩ }

/-- A circle, a spinner and a hold note. -/
def hoCircle : HitObject Dec96 :=
  ⟨⟨.left ⟨false, 256, 0⟩, .right c!"y"⟩, .left ⟨false, 30, 0⟩, .hitCircle, false, ⟨0⟩, ⟨true, false, false, true⟩, none⟩
def hoSpinner : HitObject Dec96 :=
  ⟨⟨.left ⟨false, 256, 0⟩, .left ⟨false, 192, 0⟩⟩, .left ⟨false, 30, 0⟩, .spinner (.left ⟨false, 90, 0⟩), true, ⟨0⟩,
    ⟨false, false, false, false⟩, some ⟨.noCustom, .noCustom, .timingPoint, ⟨none⟩, []⟩⟩
def hoHold : HitObject Dec96 :=
  ⟨⟨.left ⟨false, 256, 0⟩, .left ⟨false, 192, 0⟩⟩, .left ⟨false, 30, 0⟩, .hold (.left ⟨false, 90, 0⟩), false, ⟨0⟩,
    ⟨false, false, false, false⟩, some ⟨.normal, .noCustom, .timingPoint, ⟨some 5⟩, []⟩⟩

example : hoSlider.typeByte = 54 ∧ hoSlider.comboSkip.val.toNat ≤ 7 := by decide
example : hoSlider.shw 14 = some c!"100,200,1500,54,4,P|110:21.5|120:-5,2,140.5,2|0,1:2|3:7,2:3:4:80:a,b.wav" := by decide
example : (HitObject.parse 14 c!"100,200,1500,54,4,P|110:21.5|120:-5,2,140.5,2|0,1:2|3:7,2:3:4:80:a,b.wav" :
    Res _ (HitObject Dec96)) = .ok hoSlider := by decide
/-- Type number 131 has bits 0, 1 and 7: a circle. -/
example : ((HitObject.parse 14 c!"1,2,3,131,0" : Res HOErr (HitObject Dec96)) =
    .ok ⟨⟨.left ⟨false, 1, 0⟩, .left ⟨false, 2, 0⟩⟩, .left ⟨false, 3, 0⟩, .hitCircle, false, ⟨0⟩, ⟨false, false, false, false⟩, none⟩) := by
  decide

section
variable {D : Type} [DecLib D]

/-! ## C20: one hit object -/

theorem sampleBack_expressible {v : Nat} {h : HitSample} (he : SampleExpressible v h) : sampleBack v h = some h := by
  unfold sampleBack
  rw [if_neg he.1]
  split
  · rename_i hs
    obtain ⟨h1, h2⟩ := he.2 hs
    cases h; simp_all
  · rfl

theorem hoBack_expressible {v : Nat} {o : HitObject D} (h : HOExpressible v o) : hoBack v o = o := by
  have hsm : (o.params = .hitCircle → v ≠ 3) → (∀ e, o.params ≠ .hold e) → o.hitsample.bind (sampleBack v) = o.hitsample := by
    intro h1 h2
    cases hs : o.hitsample with
    | none => rfl
    | some x => exact sampleBack_expressible (h.sample h1 h2 x hs)
  unfold hoBack
  cases hp : o.params with
  | hitCircle =>
    simp only
    by_cases hv : v = 3
    · rw [if_pos hv]
      have := h.circle hp hv
      cases o; simp_all
    · rw [if_neg hv, hsm (fun _ => hv) (fun e => by rw [hp]; nofun), ← hp]
  | spinner e =>
    simp only
    rw [hsm (fun h => by rw [hp] at h; cases h) (fun e => by rw [hp]; nofun), ← hp]
  | hold e =>
    simp only
    obtain ⟨x, hx, hx'⟩ := h.hold e hp
    have : (o.hitsample.bind (sampleBack v)).getD HitSample.default = x := by
      rw [hx, Option.bind_some]
      rcases hx' with hx' | ⟨hn, rfl⟩
      · rw [sampleBack_expressible hx']; rfl
      · rw [(HitSample.print_none hn).2]; rfl
    rw [this, ← hx, ← hp]
  | slider p =>
    simp only
    rw [hsm (fun h => by rw [hp] at h; cases h) (fun e => by rw [hp]; nofun)]
    have h1 := h.sounds p hp
    have h2 := h.sets p hp
    have e2 : (!decide (p.edgeSets ≠ [] ∨ p.edgeSetsShort = false ∨ o.hitsample.isSome)) = p.edgeSetsShort := by
      cases hb : p.edgeSetsShort with
      | true => obtain ⟨a, b⟩ := h2 hb; simp [a, b]
      | false => simp
    have e1 : (!decide (p.edgeSounds ≠ [] ∨ p.edgeSoundsShort = false ∨
        (p.edgeSets ≠ [] ∨ p.edgeSetsShort = false ∨ o.hitsample.isSome))) = p.edgeSoundsShort := by
      cases hb : p.edgeSoundsShort with
      | true =>
        obtain ⟨a, b⟩ := h1 hb
        obtain ⟨c, d⟩ := h2 b
        simp [a, b, c, d]
      | false => simp
    rw [e1, e2]
    cases o; simp_all

/-- A line is accepted with value `o` exactly if its comma separated pieces mean `o` (`HOReads`). -/
theorem C20_line_meaning {v : Nat} {s : Str} {o : HitObject D} :
    HitObject.parse v s = .ok o ↔ HOReads v (splitOnC ',' s) o := HitObject.parse_iff

/-- A list of edge sounds may be missing; a hold note's sample follows a colon. -/
example : HOReads 14 (splitOnC ',' c!"256,192,30,128,0,90:1:0:0:5") hoHold := C20_line_meaning.1 (by decide)

/-- An object in the form the version's parser produces is read back unchanged. -/
theorem C20_round_trip {v : Nat} {o : HitObject D} (h : HOExpressible v o) :
    ∃ s, o.shw v = some s ∧ HitObject.parse v s = .ok o := by
  obtain ⟨s, h1, _, h2⟩ := HitObject.round_trip h.toHOWritable
  rw [hoBack_expressible h] at h2
  exact ⟨s, h1, h2⟩

/-- Every object that the version can write is read back as `hoBack v o`: only the hit sample (according to
the version) and the two flags of a slider can differ. -/
theorem C20_lossy {v : Nat} {o : HitObject D} (h : HOWritable v o) :
    ∃ s, o.shw v = some s ∧ HitObject.parse v s = .ok (hoBack v o) := by
  obtain ⟨s, h1, _, h2⟩ := HitObject.round_trip h
  exact ⟨s, h1, h2⟩

theorem sampleList_back (v : Nat) (o : Option HitSample) :
    HitObject.sampleList v (o.bind (sampleBack v)) = HitObject.sampleList v o ∧
    HitObject.sampleText v (o.bind (sampleBack v)) = HitObject.sampleText v o := by
  cases o with
  | none => exact ⟨rfl, rfl⟩
  | some h =>
    rw [Option.bind_some]
    by_cases hv : NoSample v
    · rw [(HitSample.print_none hv).2]
      simp [HitObject.sampleList, HitObject.sampleText, (HitSample.print_none (h := h) hv).1]
    · unfold sampleBack
      rw [if_neg hv]
      by_cases hs : ShortSample v
      · rw [if_pos hs]
        have hs' : 10 ≤ v ∧ v ≤ 11 := hs
        have hv' : ¬ (3 ≤ v ∧ v ≤ 9) := hv
        simp [HitObject.sampleList, HitObject.sampleText, HitSample.shw, hs', hv']
      · rw [if_neg hs]; exact ⟨rfl, rfl⟩

/-- What is read back is written as the same text, except that a hold note without hit sample gets one. -/
theorem C20_text_stable {v : Nat} {o : HitObject D} (h : ∀ e, o.params = .hold e → NoSample v ∨ o.hitsample.isSome) :
    (hoBack v o).shw v = o.shw v := by
  obtain ⟨s1, s2⟩ := sampleList_back v o.hitsample
  have nos : NoSample v → ∀ x, HitObject.sampleList v x = [] ∧ HitObject.sampleText v x = [] := by
    intro hn x
    cases x with
    | none => exact ⟨rfl, rfl⟩
    | some h => simp [HitObject.sampleList, HitObject.sampleText, (HitSample.print_none (h := h) hn).1]
  obtain ⟨pos, time, params, nc, sk, snd, smp⟩ := o
  simp only at h s1 s2
  unfold hoBack
  cases params with
  | hitCircle =>
    simp only [HitObject.shw, HitObject.typeByte]
    by_cases hv : v = 3
    · have hn : NoSample v := by subst hv; decide
      rw [if_pos hv, (nos hn _).1, (nos hn _).1]
    · rw [if_neg hv, s1]
  | spinner t =>
    simp only [HitObject.shw, HitObject.typeByte, s1]
  | hold t =>
    have key : HitObject.sampleText v (some ((smp.bind (sampleBack v)).getD HitSample.default)) =
        HitObject.sampleText v smp := by
      by_cases hn : NoSample v
      · rw [(nos hn _).2, (nos hn _).2]
      · rcases h t rfl with h | h
        · exact absurd h hn
        · obtain ⟨x, hx⟩ := Option.isSome_iff_exists.1 h
          rw [hx] at s2 ⊢
          rw [Option.bind_some] at s2 ⊢
          have : ∃ y, sampleBack v x = some y := by
            unfold sampleBack; rw [if_neg hn]; split
            · exact ⟨_, rfl⟩
            · exact ⟨_, rfl⟩
          obtain ⟨y, hy⟩ := this
          rw [hy] at s2 ⊢
          exact s2
    simp only [HitObject.shw, HitObject.typeByte, key]
  | slider p =>
    simp only [HitObject.shw, HitObject.typeByte, HitObject.sliderTail, s1]
    by_cases hsets : p.edgeSets ≠ [] ∨ p.edgeSetsShort = false ∨ smp.isSome
    · have hsounds : p.edgeSounds ≠ [] ∨ p.edgeSoundsShort = false ∨
        (p.edgeSets ≠ [] ∨ p.edgeSetsShort = false ∨ smp.isSome) := .inr (.inr hsets)
      have d1 := decide_eq_true hsets
      have d2 := decide_eq_true hsounds
      simp only [d1, d2, Bool.not_true, true_or, or_true, if_true, if_pos hsets, if_pos hsounds]
    · have hnone : smp = none := by
        cases smp with
        | none => rfl
        | some x => exact absurd (.inr (.inr rfl)) hsets
      have hes : p.edgeSets = [] := Classical.byContradiction fun h => hsets (.inl h)
      have hss : p.edgeSetsShort = true := by
        cases hb : p.edgeSetsShort with
        | true => rfl
        | false => exact absurd (.inr (.inl hb)) hsets
      simp only [hnone, hes, hss]
      cases hb : p.edgeSoundsShort <;> cases hl : p.edgeSounds <;> simp

end

theorem hoSlider_ok : HOExpressible 14 hoSlider where
  x := (by decide : Dec96.Canon ⟨false, 100, 0⟩)
  y := (by decide : Dec96.Canon ⟨false, 200, 0⟩)
  time := by
    simp only [TimeWritable, hoSlider]
    rw [if_neg (by decide)]; exact (by decide : Dec96.Canon ⟨false, 1500, 0⟩)
  skip := by decide
  params := {
    points := by
      intro c hc
      simp at hc
      rcases hc with rfl | rfl
      · exact ⟨(by decide : Dec96.Canon ⟨false, 110, 0⟩), (by decide : Dec96.Canon ⟨false, 215, 1⟩)⟩
      · exact ⟨(by decide : Dec96.Canon ⟨false, 120, 0⟩), (by decide : Dec96.Canon ⟨true, 5, 0⟩)⟩
    position := fun h => absurd h (by decide)
    length := (by decide : Dec96.Canon ⟨false, 1405, 1⟩)
    sets := by
      intro e he
      simp at he
      rcases he with rfl | rfl
      · exact ⟨trivial, trivial⟩
      · exact ⟨trivial, (by decide : (7 : UInt64) ≠ 0 ∧ (7 : UInt64) ≠ 1 ∧ (7 : UInt64) ≠ 2 ∧ (7 : UInt64) ≠ 3)⟩ }
  hitsample := by
    intro _ h hh
    cases hh
    exact ⟨trivial, trivial, by decide, by decide, by decide⟩
  circle := nofun
  sample := by
    intro _ _ h hh
    cases hh
    exact ⟨by decide, fun h => absurd h (by decide)⟩
  hold := nofun
  sounds := by intro p hp h; cases hp; cases h
  sets := by intro p hp h; cases hp; cases h

theorem hoHold_ok : HOExpressible 14 hoHold where
  x := (by decide : Dec96.Canon ⟨false, 256, 0⟩)
  y := (by decide : Dec96.Canon ⟨false, 192, 0⟩)
  time := by
    simp only [TimeWritable, hoHold]
    rw [if_neg (by decide)]; exact (by decide : Dec96.Canon ⟨false, 30, 0⟩)
  skip := by decide
  params := by
    simp only [ParamsWritable, TimeWritableC, hoHold]
    rw [if_neg (by decide)]; exact (by decide : Dec96.Canon ⟨false, 90, 0⟩)
  hitsample := by
    intro _ h hh
    cases hh
    exact ⟨trivial, trivial, by decide, by decide, by decide⟩
  circle := nofun
  sample := fun _ h => absurd rfl (h _)
  hold := fun _ _ => ⟨_, rfl, .inl ⟨by decide, fun h => absurd h (by decide)⟩⟩
  sounds := nofun
  sets := nofun

example : hoSlider.typeByte.toNat = 2 ^ 1 + 4 + 16 * 3 := C19_encode (o := hoSlider) (by decide)

example : ∃ s, hoSlider.shw 14 = some s ∧ HitObject.parse 14 s = .ok hoSlider := C20_round_trip hoSlider_ok
example : ∃ s, hoHold.shw 14 = some s ∧ HitObject.parse 14 s = .ok hoHold := C20_round_trip hoHold_ok

/-- A hold note in version 11: the volume of the hit sample is not written. -/
example : ∃ s, hoHold.shw 11 = some s ∧
    HitObject.parse 11 s = .ok { hoHold with hitsample := some ⟨.normal, .noCustom, .timingPoint, ⟨none⟩, []⟩ } :=
  C20_lossy (v := 11) (o := hoHold)
    ⟨(by decide : Dec96.Canon ⟨false, 256, 0⟩), (by decide : Dec96.Canon ⟨false, 192, 0⟩),
      by simp only [TimeWritable, hoHold]; rw [if_neg (by decide)]; exact (by decide : Dec96.Canon ⟨false, 30, 0⟩),
      by decide,
      by simp only [ParamsWritable, TimeWritableC, hoHold]; rw [if_neg (by decide)]; exact (by decide : Dec96.Canon ⟨false, 90, 0⟩),
      fun _ h hh => by cases hh; exact ⟨trivial, trivial, by decide, by decide, by decide⟩⟩

example : (hoBack 11 hoHold).shw 11 = hoHold.shw 11 := C20_text_stable fun _ _ => .inr rfl

example : hoCircle.shw 14 = some c!"256,y,30,1,9" ∧ hoSpinner.shw 14 = some c!"256,192,30,12,0,90,0:0:0:0:" ∧
    hoHold.shw 14 = some c!"256,192,30,128,0,90:1:0:0:5:" ∧ hoHold.shw 10 = some c!"256,192,30,128,0,90:1:0:0" ∧
    hoHold.shw 4 = some c!"256,192,6,128,0,66:" ∧ hoCircle.shw 3 = some c!"256,y,6,1,9," := by decide

/-- A hold note without hit sample: written, read and written again it gives another text. -/
theorem C20_false :
    ∃ (o o' : HitObject Dec96) (s s' : Str), o.shw 14 = some s ∧ HitObject.parse 14 s = .ok o' ∧ o'.shw 14 = some s' ∧ s' ≠ s :=
  ⟨{ hoHold with hitsample := none }, { hoHold with hitsample := some HitSample.default },
    c!"256,192,30,128,0,90:", c!"256,192,30,128,0,90:0:0:0:0:", by decide, by decide, by decide, by decide⟩

/-- A file name of blanks is accepted but lost when writing: the text changes once more. -/
theorem C20_false_blank_filename :
    ∃ (o o' : HitObject Dec96) (s s' : Str), HitObject.parse 14 c!"1,2,3,1,0,0:0:0:0: :x" = .ok o ∧ o.shw 14 = some s ∧
      HitObject.parse 14 s = .ok o' ∧ o'.shw 14 = some s' ∧ s' ≠ s :=
  ⟨⟨⟨.left ⟨false, 1, 0⟩, .left ⟨false, 2, 0⟩⟩, .left ⟨false, 3, 0⟩, .hitCircle, false, ⟨0⟩, ⟨false, false, false, false⟩,
      some ⟨.noCustom, .noCustom, .timingPoint, ⟨none⟩, c!" "⟩⟩,
    ⟨⟨.left ⟨false, 1, 0⟩, .left ⟨false, 2, 0⟩⟩, .left ⟨false, 3, 0⟩, .hitCircle, false, ⟨0⟩, ⟨false, false, false, false⟩,
      some ⟨.noCustom, .noCustom, .timingPoint, ⟨none⟩, []⟩⟩,
    c!"1,2,3,1,0,0:0:0:0: ", c!"1,2,3,1,0,0:0:0:0:", by decide, by decide, by decide, by decide, by decide⟩

/-- Version 3: a slider whose position is not a number but contains a bar is accepted, but what is written
is rejected, because the position is written once more among the curve points. -/
theorem C20_false_v3_position :
    ∃ (o : HitObject Dec96) (s : Str), HitObject.parse 3 c!"a|b,2,3,2,0,B,1,100" = .ok o ∧ o.shw 3 = some s ∧
      (HitObject.parse 3 s : Res HOErr (HitObject Dec96)) ≠ .ok o ∧ ¬ (HitObject.parse 3 s : Res HOErr (HitObject Dec96)).isOk :=
  ⟨⟨⟨.right c!"a|b", .left ⟨false, 2, 0⟩⟩, .left ⟨false, 27, 0⟩, .slider ⟨.bezier, [], 1, .left ⟨false, 100, 0⟩, [], true, [], true⟩,
      false, ⟨0⟩, ⟨false, false, false, false⟩, none⟩, c!"a|b,2,3,2,0,B|a|b:2,1,100", by decide, by decide, by decide, by decide⟩

section
variable {D : Type} [DecLib D]

/-! ## C21: the section -/

theorem C21_round_trip {v : Nat} {l : List (HitObject D)} (h : ∀ o ∈ l, HOExpressible v o) :
    ∃ s, HitObjects.shw v l = some s ∧ HitObjects.parse v s = .ok l := by
  have := parseLines_printed (f := HitObject.parse v) (shw := HitObject.shw v) (g := id) (l := l) (by
    intro t ht
    obtain ⟨s, h1, h2, h3⟩ := HitObject.round_trip (h t ht).toHOWritable
    rw [hoBack_expressible (h t ht)] at h3
    exact ⟨s, h1, h2, h3⟩)
  rwa [List.map_id] at this

example : ∃ s, HitObjects.shw 14 [hoSlider, hoHold] = some s ∧ HitObjects.parse 14 s = .ok [hoSlider, hoHold] :=
  C21_round_trip (List.forall_mem_cons.2 ⟨hoSlider_ok, List.forall_mem_cons.2 ⟨hoHold_ok, fun _ h => absurd h List.not_mem_nil⟩⟩)

theorem C21_lossy {v : Nat} {l : List (HitObject D)} (h : ∀ o ∈ l, HOWritable v o) :
    ∃ s, HitObjects.shw v l = some s ∧ HitObjects.parse v s = .ok (l.map (hoBack v)) :=
  parseLines_printed (f := HitObject.parse v) (shw := HitObject.shw v) (by
    intro t ht
    obtain ⟨s, h1, h2, h3⟩ := HitObject.round_trip (h t ht)
    exact ⟨s, h1, h2, h3⟩)

end

example : HitObjects.shw 14 [hoCircle, hoHold] = some c!"256,y,30,1,9\n256,192,30,128,0,90:1:0:0:5:" ∧
    HitObjects.parse 14 c!"256,y,30,1,9\n256,192,30,128,0,90:1:0:0:5:" = .ok [hoCircle, hoHold] := by decide

/-! ## C22: hit sounds -/

/-- An operation on a hit sound. -/
inductive SoundOp where
  | setNormal (b : Bool) | setWhistle (b : Bool) | setFinish (b : Bool) | setClap (b : Bool)
  deriving DecidableEq, Repr

def SoundOp.run (h : HitSound) : SoundOp → HitSound
  | setNormal b => h.setNormal b
  | setWhistle b => h.setWhistle b
  | setFinish b => h.setFinish b
  | setClap b => h.setClap b

def SoundOp.normal? : SoundOp → Option Bool | setNormal b => some b | _ => none
def SoundOp.whistle? : SoundOp → Option Bool | setWhistle b => some b | _ => none
def SoundOp.finish? : SoundOp → Option Bool | setFinish b => some b | _ => none
def SoundOp.clap? : SoundOp → Option Bool | setClap b => some b | _ => none

/-- After any sequence of operations each flag is what the last operation on it says. -/
theorem C22_flags (h : HitSound) (ops : List SoundOp) :
    (ops.foldl SoundOp.run h).normal = lastSet h.normal SoundOp.normal? ops ∧
    (ops.foldl SoundOp.run h).whistle = lastSet h.whistle SoundOp.whistle? ops ∧
    (ops.foldl SoundOp.run h).finish = lastSet h.finish SoundOp.finish? ops ∧
    (ops.foldl SoundOp.run h).clap = lastSet h.clap SoundOp.clap? ops := by
  induction ops generalizing h with
  | nil => exact ⟨rfl, rfl, rfl, rfl⟩
  | cons o os ih =>
    rw [List.foldl_cons]
    obtain ⟨h1, h2, h3, h4⟩ := ih (o.run h)
    rw [h1, h2, h3, h4]
    cases o <;> exact ⟨rfl, rfl, rfl, rfl⟩

example : (([.setWhistle true, .setClap true, .setWhistle false] : List SoundOp).foldl SoundOp.run ⟨false, false, true, false⟩) =
    ⟨false, false, true, true⟩ := by decide

/-- The sound counts as normal if its flag is set or no flag is set. -/
theorem C22_normal (h : HitSound) : h.isNormal = true ↔ h.normal = true ∨ (h.whistle = false ∧ h.finish = false ∧ h.clap = false) := by
  obtain ⟨a, b, c, d⟩ := h
  cases a <;> cases b <;> cases c <;> cases d <;> decide

example : (⟨false, false, false, false⟩ : HitSound).isNormal = true ∧ (⟨false, true, false, false⟩ : HitSound).isNormal = false :=
  ⟨(C22_normal _).2 (by decide), by decide⟩

/-- The written number: bits 0 to 3 are the flags. -/
theorem C22_written (h : HitSound) : h.shw = natToStr (h.normal.toNat + 2 * h.whistle.toNat + 4 * h.finish.toNat + 8 * h.clap.toNat) := by
  obtain ⟨a, b, c, d⟩ := h
  cases a <;> cases b <;> cases c <;> cases d <;> decide

example : (⟨true, false, true, true⟩ : HitSound).shw = c!"13" := (C22_written _).trans (by decide)

/-- A number that is read is written with all but the low four bits cleared; each flag is its bit. -/
theorem C22_low_bits {s : Str} {h : HitSound} (hp : HitSound.parse s = .ok h) :
    ∃ n, parseU8 s = .ok n ∧ h.shw = natToStr (n.toNat % 16) ∧ h.normal = n.toNat.testBit 0 ∧ h.whistle = n.toNat.testBit 1 ∧
      h.finish = n.toNat.testBit 2 ∧ h.clap = n.toNat.testBit 3 := by
  obtain ⟨n, h1, h2⟩ := Res.bind_eq_ok.1 hp
  cases h2
  refine ⟨n, h1, ?_, rfl, rfl, rfl, rfl⟩
  rw [C22_written]
  congr 1
  simp only [HitSound.ofU8]
  have tb : ∀ k, (n.toNat.testBit k).toNat = n.toNat / 2 ^ k % 2 := fun k => by
    rw [Nat.toNat_testBit]
  rw [tb, tb, tb, tb]
  simp
  omega

/-- The high bits of the number are dropped: 250 is written as 10. -/
example : ∃ n, parseU8 c!"250" = .ok n ∧ (⟨false, true, false, true⟩ : HitSound).shw = natToStr (n.toNat % 16) :=
  (C22_low_bits (s := c!"250") (h := ⟨false, true, false, true⟩) (by decide)).imp fun _ h => ⟨h.1, h.2.1⟩

/-- Every hit sound is read back from what is written. -/
theorem C22_round_trip (h : HitSound) : HitSound.parse h.shw = .ok h := HitSound.round h

example : HitSound.parse c!"202" = .ok ⟨false, true, false, true⟩ ∧ (⟨false, true, false, true⟩ : HitSound).shw = c!"10" := by
  decide

/-! ## C23: hit samples -/

/-- A text is accepted with value `h` exactly if its colon separated pieces mean `h` (`SampleReads`). -/
theorem C23_meaning {s : Str} {h : HitSample} : HitSample.parse s = .ok h ↔ SampleReads (splitOnC ':' s) h :=
  HitSample.parse_iff

example : SampleReads (splitOnC ':' c!"2:3:4:80:a.wav") ⟨.soft, .drum, .index 4, ⟨some 80⟩, c!"a.wav"⟩ := C23_meaning.1 (by decide)

/-- The five fields as text. -/
def sampleFields (h : HitSample) : List Str :=
  [h.normalSet.shw, h.additionSet.shw, h.index.shw, h.volume.shw, h.filename]

/-- The sample with the fields from number `k` on replaced by defaults. -/
def samplePrefix (k : Nat) (h : HitSample) : HitSample :=
  { normalSet := if k ≥ 1 then h.normalSet else .noCustom
    additionSet := if k ≥ 2 then h.additionSet else .noCustom
    index := if k ≥ 3 then h.index else .timingPoint
    volume := if k ≥ 4 then h.volume else ⟨none⟩
    filename := if k ≥ 5 then h.filename else [] }

/-- Any number of leading fields is accepted, with defaults for the missing ones. -/
theorem C23_prefix {h : HitSample} (hw : SampleWritable 14 h) (k : Nat) :
    HitSample.parse (join [':'] ((sampleFields h).take k)) = .ok (samplePrefix k h) := by
  have ns : ¬ ShortSample 14 := by decide
  have ha := SampleSet.round hw.normalSet
  have hb := SampleSet.round hw.additionSet
  have hi := SampleIndex.round hw.index
  have hvol := Volume.round (hw.volume ns)
  obtain ⟨hf1, hf2⟩ := hw.filename ns
  have ca := num_hold (SampleSet.parse_chars ha)
  have cb := num_hold (SampleSet.parse_chars hb)
  have ci := num_hold (SampleIndex.parse_chars hi)
  have cv := num_hold (Volume.parse_chars hvol)
  have ba : blanks h.normalSet.shw = false := by obtain ⟨n, hn, _⟩ := Res.bind_eq_ok.1 ha; exact notBlank_num hn
  have bb : blanks h.additionSet.shw = false := by obtain ⟨n, hn, _⟩ := Res.bind_eq_ok.1 hb; exact notBlank_num hn
  have bi : blanks h.index.shw = false := by obtain ⟨n, hn, _⟩ := Res.bind_eq_ok.1 hi; exact notBlank_num hn
  have bv : blanks h.volume.shw = false := by
    have hne : h.volume.shw ≠ [] ∧ AllC isNumChar h.volume.shw := by
      refine ⟨?_, Volume.parse_chars hvol⟩
      intro he
      rw [he] at hvol
      cases hvol
    rw [Bool.eq_false_iff]
    intro hbl
    rw [blanks_iff] at hbl
    cases hs : h.volume.shw with
    | nil => exact hne.1 hs
    | cons c s =>
      rw [hs] at hbl hne
      have : c = ' ' ∨ c = '\t' := by simpa [Parser.isSpace] using hbl.of_cons.1
      rcases this with rfl | rfl <;> exact absurd hne.2.of_cons.1 (by decide)
  have split : ∀ qs : List Str, qs ≠ [] → (∀ q ∈ qs, AllC holdChar q) → splitOnC ':' (join [':'] qs) = qs :=
    fun qs hne h => splitOnC_join hne fun q hq => hold_noColon (h q hq)
  have hall : ∀ q ∈ sampleFields h, AllC holdChar q := by
    intro q hq; simp [sampleFields] at hq; rcases hq with rfl | rfl | rfl | rfl | rfl <;> assumption
  rw [HitSample.parse_iff]
  match k with
  | 0 => exact sampleReads_nil
  | 1 =>
    rw [split _ (by simp [sampleFields]) (fun q hq => hall q (List.mem_of_mem_take hq))]
    have hd : dropBlankLast ((sampleFields h).take 1) = (sampleFields h).take 1 := by simp [sampleFields, dropBlankLast, ba]
    refine ⟨?_, ?_, ?_, ?_, ?_⟩ <;> rw [hd] <;> first | exact ha | rfl
  | 2 =>
    rw [split _ (by simp [sampleFields]) (fun q hq => hall q (List.mem_of_mem_take hq))]
    have hd : dropBlankLast ((sampleFields h).take 2) = (sampleFields h).take 2 := by simp [sampleFields, dropBlankLast, bb]
    refine ⟨?_, ?_, ?_, ?_, ?_⟩ <;> rw [hd] <;> first | exact ha | exact hb | rfl
  | 3 =>
    rw [split _ (by simp [sampleFields]) (fun q hq => hall q (List.mem_of_mem_take hq))]
    have hd : dropBlankLast ((sampleFields h).take 3) = (sampleFields h).take 3 := by simp [sampleFields, dropBlankLast, bi]
    refine ⟨?_, ?_, ?_, ?_, ?_⟩ <;> rw [hd] <;> first | exact ha | exact hb | exact hi | rfl
  | 4 =>
    rw [split _ (by simp [sampleFields]) (fun q hq => hall q (List.mem_of_mem_take hq))]
    have hd : dropBlankLast ((sampleFields h).take 4) = (sampleFields h).take 4 := by simp [sampleFields, dropBlankLast, bv]
    refine ⟨?_, ?_, ?_, ?_, ?_⟩ <;> rw [hd] <;> first | exact ha | exact hb | exact hi | exact hvol | rfl
  | k + 5 =>
    rw [split _ (by simp [sampleFields]) (fun q hq => hall q (List.mem_of_mem_take hq))]
    have ht : (sampleFields h).take (k + 5) = sampleFields h := List.take_of_length_le (by simp [sampleFields])
    rw [ht]
    have e : samplePrefix (k + 5) h = h := by
      simp [samplePrefix]
    rw [e]
    rcases hf2 with hf2 | hf2
    · have hd : dropBlankLast (sampleFields h) = (sampleFields h).take 4 := by
        simp [sampleFields, dropBlankLast, hf2, blanks]
      refine ⟨?_, ?_, ?_, ?_, ?_⟩ <;> rw [hd] <;> first | exact ha | exact hb | exact hi | exact hvol | exact hf2
    · have hd : dropBlankLast (sampleFields h) = sampleFields h := by simp [sampleFields, dropBlankLast, hf2]
      refine ⟨?_, ?_, ?_, ?_, ?_⟩ <;> rw [hd] <;> first | exact ha | exact hb | exact hi | exact hvol | rfl

/-- The first two of five fields. -/
example : HitSample.parse c!"2:3" = .ok ⟨.soft, .drum, .timingPoint, ⟨none⟩, []⟩ :=
  C23_prefix (h := ⟨.soft, .drum, .index 4, ⟨some 80⟩, c!"a,b.wav"⟩) ⟨trivial, trivial, by decide, by decide, by decide⟩ 2

/-- What is written: five fields, three fields in versions 10 and 11, nothing in versions 3 to 9. -/
theorem C23_written (v : Nat) (h : HitSample) :
    h.shw v = if NoSample v then none else some (join [':'] ((sampleFields h).take (if ShortSample v then 3 else 5))) := by
  unfold HitSample.shw
  by_cases hn : NoSample v
  · rw [if_pos hn, if_pos (show 3 ≤ v ∧ v ≤ 9 from hn)]
  · rw [if_neg hn, if_neg (show ¬ (3 ≤ v ∧ v ≤ 9) from hn)]
    by_cases hs : ShortSample v
    · rw [if_pos hs, if_pos (show 10 ≤ v ∧ v ≤ 11 from hs)]
      simp [sampleFields, join]
    · rw [if_neg hs, if_neg (show ¬ (10 ≤ v ∧ v ≤ 11) from hs)]
      simp [sampleFields, join]

example : (⟨.soft, .drum, .index 4, ⟨some 80⟩, c!"a.wav"⟩ : HitSample).shw 14 = some c!"2:3:4:80:a.wav" ∧
    (⟨.soft, .drum, .index 4, ⟨some 80⟩, c!"a.wav"⟩ : HitSample).shw 11 = some c!"2:3:4" := by decide

/-- From version 12 on a hit sample is read back unchanged; in versions 10 and 11 its first three fields. -/
theorem C23_round_trip {v : Nat} {h : HitSample} (hv : 10 ≤ v) (hw : SampleWritable v h) :
    ∃ s, h.shw v = some s ∧ HitSample.parse s = .ok (if v ≤ 11 then samplePrefix 3 h else h) := by
  obtain ⟨t, h', h1, h2, h3, _⟩ := HitSample.print hw (show ¬ NoSample v from fun h => by have := h.2; omega)
  refine ⟨t, h1, ?_⟩
  rw [HitSample.parse_iff]
  unfold sampleBack at h2
  rw [if_neg (show ¬ NoSample v from fun h => by have := h.2; omega)] at h2
  by_cases hs : v ≤ 11
  · rw [if_pos (show ShortSample v from ⟨hv, hs⟩)] at h2
    rw [if_pos hs]
    cases h2
    exact h3
  · rw [if_neg (show ¬ ShortSample v from fun h => hs h.2)] at h2
    rw [if_neg hs]
    cases h2
    exact h3

example : SampleWritable 14 ⟨.soft, .drum, .index 4, ⟨some 80⟩, c!"a b.wav"⟩ :=
  ⟨trivial, trivial, by decide, by decide, by decide⟩
example : HitSample.parse c!"2:3:" = .ok ⟨.soft, .drum, .timingPoint, ⟨none⟩, []⟩ ∧
    HitSample.parse c!"" = .ok ⟨.noCustom, .noCustom, .timingPoint, ⟨none⟩, []⟩ ∧
    HitSample.parse c!"2:3:4:80:a b.wav" = .ok ⟨.soft, .drum, .index 4, ⟨some 80⟩, c!"a b.wav"⟩ := by decide

/-! ## C24: bounded numbers -/

/-- The combo skip count after any number of `set` calls is the last argument not above 7, or else the
initial value; each call reports whether the argument was accepted. -/
theorem C24_combo_skip (c : ComboSkipCount) (ops : List UInt8) :
    (ops.foldl (fun c n => (c.set n).1) c).val = ((ops.filter fun n => n.toNat ≤ 7).getLast?).getD c.val ∧
      ∀ n, (c.set n).2 = decide (n.toNat ≤ 7) := by
  have hset : ∀ (c : ComboSkipCount) n, c.set n = if n.toNat ≤ 7 then (⟨n⟩, true) else (c, false) := by
    intro c n
    unfold ComboSkipCount.set ComboSkipCount.new
    by_cases h : n.toNat ≤ 7
    · have : ¬ n > 7 := by intro h'; have : 7 < n.toNat := h'; omega
      rw [if_neg this, if_pos h]
    · have : n > 7 := by show 7 < n.toNat; omega
      rw [if_pos this, if_neg h]
  constructor
  · induction ops generalizing c with
    | nil => rfl
    | cons n ns ih =>
      rw [List.foldl_cons, ih, hset]
      by_cases h : n.toNat ≤ 7
      · rw [if_pos h, List.filter_cons_of_pos (by simpa using h)]
        cases hl : (ns.filter fun n => n.toNat ≤ 7) with
        | nil => rfl
        | cons a l => rw [List.getLast?_cons_cons, List.getLast?_cons]; rfl
      · rw [if_neg h, List.filter_cons_of_neg (by simpa using h)]
  · intro n; rw [hset]; split <;> simp_all

example : ([3, 8, 5, 200] : List UInt8).foldl (fun c n => (ComboSkipCount.set c n).1) ⟨0⟩ = ⟨5⟩ := by decide

/-- A combo skip count obtained from the constructor, changed by any calls, is at most 7. -/
theorem C24_combo_skip_bound {n : UInt8} {c : ComboSkipCount} (h : ComboSkipCount.new n = some c) (ops : List UInt8) :
    (ops.foldl (fun c n => (c.set n).1) c).val.toNat ≤ 7 := by
  rw [(C24_combo_skip c ops).1]
  have hc : c.val.toNat ≤ 7 := by
    unfold ComboSkipCount.new at h
    split at h
    · cases h
    · rename_i hn; cases h
      have : ¬ (7 < n.toNat) := hn
      show n.toNat ≤ 7
      omega
  cases hl : (ops.filter fun n => n.toNat ≤ 7).getLast? with
  | none => exact hc
  | some x =>
    have := List.mem_of_getLast? hl
    simpa using (List.mem_filter.1 this).2

example : (([9, 5, 200] : List UInt8).foldl (fun c n => (c.set n).1) (⟨3⟩ : ComboSkipCount)).val.toNat ≤ 7 :=
  C24_combo_skip_bound (n := 3) (by decide) _

/-- And so is the count of every object that is read. -/
theorem C24_combo_skip_read {D : Type} [DecLib D] {v : Nat} {s : Str} {o : HitObject D} (h : HitObject.parse v s = .ok o) :
    o.comboSkip.val.toNat ≤ 7 := by
  obtain ⟨_, n, _, _, _, _, _, h⟩ := C19_decode h
  omega

example : hoSlider.comboSkip.val.toNat ≤ 7 :=
  C24_combo_skip_read (v := 14) (s := c!"100,200,1500,54,4,P|110:21.5|120:-5,2,140.5,2|0,1:2|3:7,2:3:4:80:a,b.wav") (by decide)

/-- An operation on a hit sample volume. -/
inductive VolumeOp where
  | set (n : UInt8)
  | useTimingPoint
  deriving DecidableEq, Repr

def VolumeOp.run (x : Volume) : VolumeOp → Volume
  | set n => (x.setVolume n).1
  | useTimingPoint => x.setUseTimingPointVolume

/-- The value an operation leads to, if it is accepted. -/
def VolumeOp.result : VolumeOp → Option (Option UInt8)
  | set n => if 1 ≤ n.toNat ∧ n.toNat ≤ 100 then some (some n) else none
  | useTimingPoint => some none

def VolumeOk (x : Volume) : Prop := ∀ n, x.val = some n → 1 ≤ n.toNat ∧ n.toNat ≤ 100

theorem setVolume_eq (x : Volume) (n : UInt8) :
    x.setVolume n = if 1 ≤ n.toNat ∧ n.toNat ≤ 100 then (⟨some n⟩, true) else (x, false) := by
  unfold Volume.setVolume
  by_cases h0 : n = 0
  · subst h0; rfl
  · have h0' : n.toNat ≠ 0 := fun h => h0 (UInt8.toNat_inj.1 h)
    rw [if_neg h0]
    by_cases h1 : n > 100
    · have : 100 < n.toNat := h1
      rw [if_pos h1, if_neg (by omega)]
    · have : ¬ 100 < n.toNat := h1
      rw [if_neg h1, if_pos (by omega)]

/-- After any sequence of calls the volume is the result of the last accepted one, or else the initial
value; a `set` is accepted exactly for 1 to 100. -/
theorem C24_volume (x : Volume) (ops : List VolumeOp) :
    (ops.foldl VolumeOp.run x).val = ((ops.filterMap VolumeOp.result).getLast?).getD x.val ∧
      ∀ n, (x.setVolume n).2 = decide (1 ≤ n.toNat ∧ n.toNat ≤ 100) := by
  constructor
  · induction ops generalizing x with
    | nil => rfl
    | cons o os ih =>
      rw [List.foldl_cons, ih]
      have last : ∀ (a d : Option UInt8) (l : List (Option UInt8)), ((a :: l).getLast?).getD d = (l.getLast?).getD a := by
        intro a d l
        cases l with
        | nil => rfl
        | cons b l => rw [List.getLast?_cons_cons, List.getLast?_cons]; rfl
      cases o with
      | useTimingPoint =>
        rw [List.filterMap_cons_some (show VolumeOp.result .useTimingPoint = some none from rfl), last]
        rfl
      | set n =>
        by_cases h : 1 ≤ n.toNat ∧ n.toNat ≤ 100
        · rw [List.filterMap_cons_some (show VolumeOp.result (.set n) = some (some n) by simp only [VolumeOp.result, if_pos h]), last]
          simp only [VolumeOp.run, setVolume_eq, if_pos h]
        · rw [List.filterMap_cons_none (by simp only [VolumeOp.result, if_neg h])]
          simp only [VolumeOp.run, setVolume_eq, if_neg h]
  · intro n; rw [setVolume_eq]; split <;> simp_all

example : (([.set 50, .set 101, .useTimingPoint, .set 0] : List VolumeOp).foldl VolumeOp.run ⟨some 7⟩) = ⟨none⟩ := by decide

/-- The volume is always absent or 1 to 100: from the constructor or the parser, after any calls. -/
theorem C24_volume_bound {x : Volume} (h : (∃ n, Volume.new n = .ok x) ∨ (∃ s, Volume.parse s = .ok x)) (ops : List VolumeOp) :
    VolumeOk (ops.foldl VolumeOp.run x) := by
  have hx : VolumeOk x := by
    rcases h with ⟨n, h⟩ | ⟨s, h⟩
    · unfold Volume.new at h
      cases n with
      | none => cases h; intro n hn; cases hn
      | some n =>
        simp only at h
        split at h
        · cases h
        · split at h
          · cases h
          · rename_i h0 h1; cases h
            intro m hm
            cases hm
            have h0' : n.toNat ≠ 0 := fun h => h0 (UInt8.toNat_inj.1 h)
            have : ¬ 100 < n.toNat := h1
            omega
    · exact Volume.valid_parse h
  induction ops generalizing x with
  | nil => exact hx
  | cons o os ih =>
    rw [List.foldl_cons]
    refine ih (x := o.run x) ?_ ?_
    · left
      cases o with
      | useTimingPoint => exact ⟨none, rfl⟩
      | set n =>
        simp only [VolumeOp.run, setVolume_eq]
        have mk : ∀ y : Volume, VolumeOk y → ∃ n, Volume.new n = .ok y := by
          rintro ⟨y⟩ hy
          refine ⟨y, ?_⟩
          cases y with
          | none => rfl
          | some m =>
            obtain ⟨a, b⟩ := hy m rfl
            unfold Volume.new
            have n0 : ¬ m = 0 := by rintro rfl; simp at a
            have n1 : ¬ m > 100 := by intro h'; have : 100 < m.toNat := h'; omega
            simp only [if_neg n0, if_neg n1]
        split
        · rename_i hn; exact mk _ (fun m hm => by cases hm; exact hn)
        · exact mk _ hx
    · cases o with
      | useTimingPoint => intro n hn; cases hn
      | set n =>
        simp only [VolumeOp.run, setVolume_eq]
        split
        · rename_i hn; intro m hm; cases hm; exact hn
        · exact hx

example : ([3, 9, 7, 8].foldl (fun c n => (c.set n).1) (⟨0⟩ : ComboSkipCount)).val = 7 ∧
    ([VolumeOp.set 50, .set 101, .useTimingPoint, .set 100, .set 0].foldl VolumeOp.run ⟨none⟩).val = some 100 := by decide

/-! ## C25: codes -/

/-- Sample set numbers survive; distinct numbers are distinct sets. -/
theorem C25_ho_sample_set (n : UInt64) : (SampleSet.ofCode n).code = n := by
  unfold SampleSet.ofCode
  split
  · simp_all [SampleSet.code]
  · split
    · simp_all [SampleSet.code]
    · split
      · simp_all [SampleSet.code]
      · split
        · simp_all [SampleSet.code]
        · rfl

example : (SampleSet.ofCode 1234).code = 1234 := C25_ho_sample_set _

theorem C25_ho_sample_set_text {s : Str} {x : SampleSet} (h : SampleSet.parse s = .ok x) :
    ∃ n, parseUsize s = .ok n ∧ x.code = n ∧ x.shw = usizeToStr n := by
  obtain ⟨n, h1, h2⟩ := Res.bind_eq_ok.1 h
  cases h2
  exact ⟨n, h1, C25_ho_sample_set n, by unfold SampleSet.shw; rw [C25_ho_sample_set]⟩

example : ∃ n, parseUsize c!"+07" = .ok n ∧ SampleSet.code (.other 7) = n ∧ SampleSet.shw (.other 7) = usizeToStr n :=
  C25_ho_sample_set_text (by decide)

theorem C25_ho_sample_index (n : UInt64) : (SampleIndex.ofCode n).code = n := by
  unfold SampleIndex.ofCode
  split
  · simp_all [SampleIndex.code]
  · rfl

example : (SampleIndex.ofCode 0).code = 0 ∧ (SampleIndex.ofCode 7).code = 7 := ⟨C25_ho_sample_index _, C25_ho_sample_index _⟩

/-- Curve types: exactly the four letters are accepted, and each is written as the letter read. -/
theorem C25_curve_type (s : Str) (c : CurveType) : CurveType.parse s = .ok c ↔ s = c.shw := by
  constructor
  · intro h
    unfold CurveType.parse at h
    split at h
    · cases h; assumption
    · split at h
      · cases h; assumption
      · split at h
        · cases h; assumption
        · split at h
          · cases h; assumption
          · cases h
  · rintro rfl; cases c <;> decide

example : SampleSet.parse c!"77" = .ok (.other 77) ∧ (SampleSet.other 77).shw = c!"77" ∧ CurveType.parse c!"P" = .ok .perfectCircle := by
  decide

/-! ## C26: times -/

section
variable {D : Type} [DecLib D]

/-- The time of an object is read from the third piece, the end time of a spinner from the sixth, that of a
hold note from the text between the fifth comma and the next colon; all are shifted in versions 3 and 4. -/
theorem C26_hit_object {v : Nat} {s : Str} {o : HitObject D} (h : HitObject.parse v s = .ok o) :
    (∃ p, (splitOnC ',' s)[2]? = some p ∧ TimeReads v p o.time) ∧
    (∀ e, o.params = .spinner e → ∃ p, (splitOnC ',' s)[5]? = some p ∧ TimeReads v p e) ∧
    (∀ e, o.params = .hold e → ∃ p b, join [','] ((splitOnC ',' s).drop 5) = p ++ ':' :: b ∧ ':' ∉ p ∧ TimeReads v p e) := by
  have h' := HitObject.parse_iff.1 h
  generalize splitOnC ',' s = ps at h'
  cases h' with
  | circle hh h0 hp =>
    exact ⟨⟨_, rfl, hh.time⟩, (fun e he => by rw [hp] at he; cases he), fun e he => by rw [hp] at he; cases he⟩
  | slider hh h0 h1 hp =>
    exact ⟨⟨_, rfl, hh.time⟩, (fun e he => by rw [hp] at he; cases he), fun e he => by rw [hp] at he; cases he⟩
  | spinner hh h0 h1 h3 hp het =>
    exact ⟨⟨_, rfl, hh.time⟩, (fun e he => by rw [hp] at he; cases he; exact ⟨_, rfl, het⟩), fun e he => by rw [hp] at he; cases he⟩
  | hold hh h0 h1 h3 h7 hp hq =>
    refine ⟨⟨_, rfl, hh.time⟩, (fun e he => by rw [hp] at he; cases he), fun e he => ?_⟩
    rw [hp] at he; cases he
    obtain ⟨a, b, _, h1, h2, h3, _⟩ := hq
    refine ⟨a, b, h1, ?_, h3⟩
    intro hm
    have := (lacks_iff.1 h2) ':' hm
    simp at this

end

example : ((HitObject.parse 4 c!"256,192,6,128,0,66:" : Res HOErr (HitObject Dec96))) =
    .ok { hoHold with hitsample := some HitSample.default } := by decide

/-! ## Stability and panic freedom -/

section
variable {D : Type} [DecLib D]

theorem splitOnC_sub {c : Char} {s q : Str} (hq : q ∈ splitOnC c s) {x : Char} (hx : x ∈ q) : x ∈ s := by
  have hj := join_splitOnC c s
  rw [← hj]
  clear hj
  generalize splitOnC c s = ps at hq
  induction ps with
  | nil => cases hq
  | cons p ps ih =>
    cases ps with
    | nil => simp at hq; subst hq; simpa [join] using hx
    | cons r rs =>
      rw [join_cons_cons]
      rcases List.mem_cons.1 hq with rfl | hq
      · simp [hx]
      · have := ih hq; simp [this]

theorem dropBlankLast_sub {ps : List Str} {q : Str} (h : q ∈ dropBlankLast ps) : q ∈ ps := by
  induction ps with
  | nil => cases h
  | cons p ps ih =>
    cases ps with
    | nil =>
      unfold dropBlankLast at h
      split at h
      · cases h
      · exact h
    | cons r rs =>
      unfold dropBlankLast at h
      rcases List.mem_cons.1 h with rfl | h
      · simp
      · simp [ih h]

/-- A hit sample that was read can be written, if its file name is not blank. -/
theorem sampleWritable_of_reads {v : Nat} {s : Str} {h : HitSample} (hr : SampleReads (splitOnC ':' s) h)
    (hs : ∀ c ∈ s, lastChar c = true) (hb : ¬ ShortSample v → h.filename = [] ∨ blanks h.filename = false) : SampleWritable v h := by
  have nm : ∀ {p : Option Str} {x : SampleSet}, fieldIs SampleSet.parse .noCustom p x → HOSetNamed x := by
    intro p x hx
    cases p with
    | none => cases hx; trivial
    | some p => exact SampleSet.named_parse hx
  refine ⟨nm hr.normalSet, nm hr.additionSet, ?_, ?_, ?_⟩
  · have := hr.index
    generalize (dropBlankLast (splitOnC ':' s))[2]? = p at this
    cases p with
    | none => have : h.index = .timingPoint := this; rw [this]; nofun
    | some p => exact SampleIndex.valid_parse this
  · intro _
    have := hr.volume
    generalize (dropBlankLast (splitOnC ':' s))[3]? = p at this
    cases p with
    | none => have : h.volume = ⟨none⟩ := this; rw [this]; nofun
    | some p => exact Volume.valid_parse this
  · intro hsh
    refine ⟨?_, hb hsh⟩
    intro c hc
    rw [hr.filename] at hc
    cases hp : (dropBlankLast (splitOnC ':' s))[4]? with
    | none => rw [hp] at hc; cases hc
    | some p =>
      rw [hp] at hc
      have hm := dropBlankLast_sub (List.mem_of_getElem? hp)
      have h1 := splitOnC_chars ':' s p hm c hc
      have h2 := hs c (splitOnC_sub hm hc)
      simp [lastChar] at h1 h2
      simp [holdChar, h1, h2]

theorem pipeReads_mem {ε α : Type} {f : Str → Res ε α} {p : Str} {l : List α} (h : PipeReads f p l) :
    ∀ a ∈ l, ∃ q ∈ splitOnC '|' p, f q = .ok a := by
  rcases h with ⟨_, rfl⟩ | ⟨_, _, h⟩
  · nofun
  · intro a ha
    have : Res.ok a ∈ (splitOnC '|' p).map f := by rw [h]; exact List.mem_map_of_mem ha
    exact List.mem_map.1 this

/-- What is read in version `v` can be written in version `w`, if the numbers of its times fit, a hit sample's file name is not
blank and in version 3 a slider's position has no bar in it. -/
theorem hoWritable_at {v w : Nat} {s : Str} {o : HitObject D} (h : HitObject.parse v s = .ok o)
    (hs : ∀ c ∈ s, lastChar c = true)
    (hex : ∀ p d, o.time = .left d ∨ o.params = .spinner (.left d) ∨ o.params = .hold (.left d) → TimeReads v p (.left d) → NumberFits w d)
    (hf : 12 ≤ w ∨ w ≤ 2 → ∀ h, o.hitsample = some h → h.filename = [] ∨ blanks h.filename = false)
    (hb : w = 3 → ∀ p, o.params = .slider p → DecWritable pointY o.position.x ∧ DecWritable pointY o.position.y) :
    HOWritable w o := by
  have hskip := C24_combo_skip_read h
  have h' := HitObject.parse_iff.1 h
  have hch : ∀ p ∈ splitOnC ',' s, ∀ c ∈ p, fieldChar c = true := by
    intro p hp c hc
    have h1 := splitOnC_chars ',' s p hp c hc
    have h3 := hs c (splitOnC_sub hp hc)
    simp [fieldChar, lastChar] at h1 h3 ⊢
    exact ⟨⟨h1, h3.1⟩, h3.2⟩
  have hfl : ∀ c, fieldChar c = true → lastChar c = true := fun c hc => lastChar_of_field hc
  -- everything after some pieces
  have jch : ∀ ps qs : List Str, splitOnC ',' s = ps ++ qs → ∀ c ∈ join [','] qs, lastChar c = true := by
    intro ps qs e c hc
    cases qs with
    | nil => cases hc
    | cons q qs =>
      rw [join_eq_preC] at hc
      have hm : ∀ q' ∈ q :: qs, ∀ c ∈ q', lastChar c = true := fun q' hq' c hc =>
        hfl c (hch q' (by rw [e]; exact List.mem_append_right _ hq') c hc)
      rcases List.mem_append.1 hc with hc | hc
      · exact hm q (by simp) c hc
      · exact preC_last (fun x hx => hm x (by simp [hx])) c hc
  have smp : ∀ qs : List Str, (∀ c ∈ join [','] qs, lastChar c = true) → SampleTail qs o.hitsample →
      ¬ NoSample w → ∀ h, o.hitsample = some h → SampleWritable w h := by
    intro qs hqs ht hn h hh
    cases qs with
    | nil => have ht : o.hitsample = none := ht; rw [ht] at hh; cases hh
    | cons q qs =>
      obtain ⟨h', hr, e⟩ := ht
      rw [hh] at e; cases e
      refine sampleWritable_of_reads hr hqs fun hsh => hf ?_ _ hh
      have h1 : ¬ (3 ≤ w ∧ w ≤ 9) := hn
      have h2 : ¬ (10 ≤ w ∧ w ≤ 11) := hsh
      omega
  have head : ∀ {x y t ty hs : Str} {n : Int32} {rest : List Str}, splitOnC ',' s = x :: y :: t :: rest →
      HOHead v x y t ty hs n o → DecWritable fieldChar o.position.x ∧ DecWritable fieldChar o.position.y ∧ TimeWritable w o.time := by
    intro x y t ty hs n rest e hh
    rw [e] at hch
    refine ⟨?_, ?_, timeWritable_at hh.time (hch t (by simp)) (fun d e => hex t d (.inl e) (e ▸ hh.time))⟩
    · rw [hh.x]; exact decWritable_ofStr (hch x (by simp))
    · rw [hh.y]; exact decWritable_ofStr (hch y (by simp))
  generalize hps : splitOnC ',' s = ps at h'
  cases h' with
  | @circle x y t ty hs qs n o hh h0 hp hq =>
    obtain ⟨h1, h2, h3⟩ := head hps hh
    exact ⟨h1, h2, h3, hskip, by rw [hp]; trivial, smp qs (jch [x, y, t, ty, hs] qs hps) hq⟩
  | @spinner x y t ty hs e qs n o et hh h0 h1 h3 hp he hq =>
    obtain ⟨g1, g2, g3⟩ := head hps hh
    refine ⟨g1, g2, g3, hskip, ?_, smp qs (jch [x, y, t, ty, hs, e] qs hps) hq⟩
    rw [hp]
    exact timeWritable_at he (hch e (by rw [hps]; simp)) (fun d e' => hex e d (.inr (.inl (e' ▸ hp))) (e' ▸ he))
  | @hold x y t ty hs q qs n o et hh h0 h1 h3 h7 hp hq =>
    obtain ⟨g1, g2, g3⟩ := head hps hh
    obtain ⟨a, b, h', e, ha, het, hr, ho⟩ := hq
    have hj := jch [x, y, t, ty, hs] (q :: qs) hps
    rw [e] at hj
    have ha' := lacks_iff.1 ha
    have cha : ∀ c ∈ a, holdChar c = true := by
      intro c hc
      have h1 := hj c (by simp [hc])
      have h2 := ha' c hc
      simp [lastChar] at h1 h2
      simp [holdChar, h1, h2]
    refine ⟨g1, g2, g3, hskip, ?_, ?_⟩
    · rw [hp]
      show TimeWritableC holdChar w et
      cases et with
      | left d => exact hex a d (.inr (.inr hp)) het
      | right q =>
        unfold TimeReads at het
        cases hd : (DecLib.parse a : Option D) with
        | none => rw [hd] at het; cases het; exact ⟨hd, cha⟩
        | some d =>
          rw [hd] at het
          simp only at het
          split at het
          · obtain ⟨_, _, het⟩ := het; cases het
          · cases het
    · intro hn x hx
      rw [ho] at hx; cases hx
      refine sampleWritable_of_reads hr (fun c hc => hj c (by simp [hc])) fun hsh => hf ?_ _ ho
      have h1 : ¬ (3 ≤ w ∧ w ≤ 9) := hn
      have h2 : ¬ (10 ≤ w ∧ w ≤ 11) := hsh
      omega
  | @slider x y t ty hs c m l qs n o p hh h0 h1 hp hq =>
    obtain ⟨g1, g2, g3⟩ := head hps hh
    have hedge := hq.edges
    refine ⟨g1, g2, g3, hskip, ?_, ?_⟩
    · rw [hp]
      show SliderWritable w o.position p
      refine ⟨?_, fun hv => hb hv p hp, ?_, ?_⟩
      · have hcc := hch c (by rw [hps]; simp)
        intro pt hpt
        rcases hq.curve with ⟨_, he⟩ | ⟨a, b, pts, e, _, _, hr, he⟩
        · rw [he] at hpt; cases hpt
        · have hm : pt ∈ pts := by
            rw [he] at hpt
            split at hpt
            · exact List.mem_of_mem_tail hpt
            · exact hpt
          obtain ⟨q, hq, hpq⟩ := pipeReads_mem hr pt hm
          obtain ⟨px, py, e', hx, h1, h2⟩ := CurvePoint.parse_iff.1 hpq
          have hqc : ∀ d ∈ q, pointY d = true := by
            intro d hd
            have k1 := splitOnC_chars '|' b q hq d hd
            have k2 := hcc d (by rw [e]; simp [splitOnC_sub hq hd])
            simp [fieldChar] at k1 k2
            simp [pointY, k1, k2]
          rw [h1, h2]
          refine ⟨decWritable_ofStr ?_, decWritable_ofStr ?_⟩
          · intro d hd
            have k1 := hqc d (by rw [e']; simp [hd])
            have k2 := hx d hd
            simp [pointY] at k1 k2
            simp [pointX, k1, k2]
          · intro d hd
            exact hqc d (by rw [e']; simp [hd])
      · rw [hq.length]; exact decWritable_ofStr (hch l (by rw [hps]; simp))
      · have hset : ∀ {q : Str} {es : List EdgeSet}, PipeReads EdgeSet.parse q es →
            ∀ e ∈ es, HOSetNamed e.normalSet ∧ HOSetNamed e.additionSet := by
          intro q es hr e he
          obtain ⟨q', _, hq'⟩ := pipeReads_mem hr e he
          obtain ⟨a, b, _, k1, k2⟩ := EdgeSet.parse_iff.1 hq'
          exact ⟨SampleSet.named_parse k1, SampleSet.named_parse k2⟩
        revert hedge
        generalize p.edgeSounds = v1; generalize p.edgeSoundsShort = v2; generalize p.edgeSets = v3
        generalize p.edgeSetsShort = v4; generalize o.hitsample = v5
        intro hedge
        cases hedge with
        | none => nofun
        | sounds => nofun
        | sets _ h2 =>
          rcases h2 with h2 | ⟨_, rfl⟩
          · exact hset h2
          · nofun
        | sample _ h2 _ => exact hset h2
    · intro hn hsmp hh'
      have : SampleTail [] o.hitsample ∨ ∃ a b r rs, qs = a :: b :: r :: rs ∧ SampleTail (r :: rs) o.hitsample := by
        revert hedge
        generalize p.edgeSounds = v1; generalize p.edgeSoundsShort = v2; generalize p.edgeSets = v3
        generalize p.edgeSetsShort = v4; generalize o.hitsample = v5
        intro hedge
        cases hedge with
        | none => exact .inl rfl
        | sounds => exact .inl rfl
        | sets _ h2 => exact .inl rfl
        | sample _ h2 ho => exact .inr ⟨_, _, _, _, rfl, ho⟩
      rcases this with ht | ⟨a, b, r, rs, rfl, ht⟩
      · have ht : o.hitsample = none := ht
        rw [ht] at hh'; cases hh'
      · exact smp (r :: rs) (jch [x, y, t, ty, hs, c, m, l, a, b] (r :: rs) hps) ht hn hsmp hh'

/-- What is read can be written, if a hit sample's file name is not blank and in version 3 a slider's
position has no bar in it. -/
theorem hoWritable_of_parse {v : Nat} {s : Str} {o : HitObject D} (h : HitObject.parse v s = .ok o)
    (hs : ∀ c ∈ s, lastChar c = true) (hex : Offset24Exact D v)
    (hf : 12 ≤ v ∨ v ≤ 2 → ∀ h, o.hitsample = some h → h.filename = [] ∨ blanks h.filename = false)
    (hb : v = 3 → ∀ p, o.params = .slider p → DecWritable pointY o.position.x ∧ DecWritable pointY o.position.y) :
    HOWritable v o :=
  hoWritable_at h hs (fun _ _ _ hr => numberFits_of_reads hr hex) hf hb

/-- Hold notes that were read have a hit sample. -/
theorem hold_sample_of_parse {v : Nat} {s : Str} {o : HitObject D} (h : HitObject.parse v s = .ok o) {e : Decimal D}
    (he : o.params = .hold e) : o.hitsample.isSome := by
  have h' := HitObject.parse_iff.1 h
  generalize splitOnC ',' s = ps at h'
  cases h' with
  | circle _ _ hp => rw [hp] at he; cases he
  | slider _ _ _ hp => rw [hp] at he; cases he
  | spinner _ _ _ _ hp => rw [hp] at he; cases he
  | hold _ _ _ _ _ _ hq =>
    obtain ⟨_, _, _, _, _, _, _, ho⟩ := hq
    rw [ho]; rfl

/-- The two flags of a slider that was read say whether the lists were left out. -/
theorem slider_flags_of_parse {v : Nat} {s : Str} {o : HitObject D} (h : HitObject.parse v s = .ok o) {p : SlideParams D}
    (hp' : o.params = .slider p) : (p.edgeSoundsShort = true → p.edgeSounds = [] ∧ p.edgeSetsShort = true) ∧
      (p.edgeSetsShort = true → p.edgeSets = [] ∧ o.hitsample = none) := by
  have h' := HitObject.parse_iff.1 h
  generalize splitOnC ',' s = ps at h'
  cases h' with
  | circle _ _ hp => rw [hp] at hp'; cases hp'
  | hold _ _ _ _ _ hp => rw [hp] at hp'; cases hp'
  | spinner _ _ _ _ hp => rw [hp] at hp'; cases hp'
  | slider _ _ _ hp hq =>
    rw [hp] at hp'; cases hp'
    have hedge := hq.edges
    revert hedge
    generalize p.edgeSounds = v1; generalize p.edgeSoundsShort = v2; generalize p.edgeSets = v3
    generalize p.edgeSetsShort = v4; generalize o.hitsample = v5
    intro hedge
    cases hedge with
    | none => exact ⟨fun _ => ⟨rfl, rfl⟩, fun _ => ⟨rfl, rfl⟩⟩
    | sounds => exact ⟨nofun, fun _ => ⟨rfl, rfl⟩⟩
    | sets _ _ => exact ⟨nofun, nofun⟩
    | sample _ _ _ => exact ⟨nofun, nofun⟩

/-- A HitObjects text that is read, without stray carriage returns, blank sample file names and (in version 3)
bars in slider positions: writing it gives a text that is read again, as `hoBack` says, and then writes to
itself. -/
theorem C42_hit_objects_stable {v : Nat} {s : Str} {l : List (HitObject D)} (h : HitObjects.parse v s = .ok l)
    (hs : ∀ x ∈ lines s, '\r' ∉ x) (hex : Offset24Exact D v)
    (hf : 12 ≤ v ∨ v ≤ 2 → ∀ o ∈ l, ∀ h, o.hitsample = some h → h.filename = [] ∨ blanks h.filename = false)
    (hb : v = 3 → ∀ o ∈ l, ∀ p, o.params = .slider p → DecWritable pointY o.position.x ∧ DecWritable pointY o.position.y) :
    ∃ s', HitObjects.shw v l = some s' ∧ HitObjects.parse v s' = .ok (l.map (hoBack v)) ∧
      HitObjects.shw v (l.map (hoBack v)) = some s' := by
  obtain ⟨s', h1, h2⟩ := C21_lossy (v := v) (l := l) (fun o ho => by
    obtain ⟨x, hx, _, hp⟩ := parseLines_mem h o ho
    refine hoWritable_of_parse hp (fun c hc => ?_) hex (fun hv => hf hv o ho) (fun hv => hb hv o ho)
    have h1 := lines_noLF s x hx c hc
    have h2 : c ≠ '\r' := by rintro rfl; exact hs x hx hc
    simp at h1
    simp [lastChar, h1, h2])
  refine ⟨s', h1, h2, ?_⟩
  rw [← h1]
  unfold HitObjects.shw printLinesP
  congr 1
  rw [List.mapM_map]
  have : ∀ l' : List (HitObject D), (∀ o ∈ l', o ∈ l) → l'.mapM (HitObject.shw v ∘ hoBack v) = l'.mapM (HitObject.shw v) := by
    intro l' hl'
    induction l' with
    | nil => rfl
    | cons o os ih =>
      rw [List.mapM_cons, List.mapM_cons, ih fun x hx => hl' x (by simp [hx])]
      obtain ⟨x, _, _, hp⟩ := parseLines_mem h o (hl' o (by simp))
      rw [Function.comp, C20_text_stable fun e he => .inr (hold_sample_of_parse hp he)]
  exact this l fun _ h => h

/-- From version 12 on the values themselves are stable. -/
theorem C42_hit_objects_value {v : Nat} (hv : 12 ≤ v) {s : Str} {l : List (HitObject D)} (h : HitObjects.parse v s = .ok l)
    (hs : ∀ x ∈ lines s, '\r' ∉ x)
    (hf : ∀ o ∈ l, ∀ h, o.hitsample = some h → h.filename = [] ∨ blanks h.filename = false) :
    ∃ s', HitObjects.shw v l = some s' ∧ HitObjects.parse v s' = .ok l := by
  obtain ⟨s', h1, h2, _⟩ := C42_hit_objects_stable h hs (fun h3 h4 => by omega) (fun _ => hf) (fun h3 => by omega)
  refine ⟨s', h1, ?_⟩
  have : l.map (hoBack v) = l := by
    conv => rhs; rw [← List.map_id l]
    apply List.map_congr_left
    intro o ho
    obtain ⟨x, hx, _, hp⟩ := parseLines_mem h o ho
    refine hoBack_expressible ⟨hoWritable_of_parse hp (fun c hc => ?_) (fun h3 h4 => by omega) (fun _ => hf o ho) (fun h3 => by omega),
      fun _ h3 => by omega, ?_, ?_, ?_, ?_⟩
    · have h1 := lines_noLF s x hx c hc
      have h2 : c ≠ '\r' := by rintro rfl; exact hs x hx hc
      simp at h1
      simp [lastChar, h1, h2]
    · intro _ _ h _
      exact ⟨fun h => by have := h.2; omega, fun h => by have := h.2; omega⟩
    · intro e he
      obtain ⟨y, hy⟩ := Option.isSome_iff_exists.1 (hold_sample_of_parse hp he)
      exact ⟨y, hy, .inl ⟨fun h => by have := h.2; omega, fun h => by have := h.2; omega⟩⟩
    · intro p hp'; exact (slider_flags_of_parse hp hp').1
    · intro p hp'; exact (slider_flags_of_parse hp hp').2
  rwa [this] at h2

/-- Two objects with leading zeros and a needless sign; an empty line between them. -/
private def twoText : Str := c!"256,192,030,128,0,090:+1:0:0:5:\n\n256,y,30,1,9"

example : ∃ s', HitObjects.shw 14 [hoHold, hoCircle] = some s' ∧ HitObjects.parse 14 s' = .ok [hoHold, hoCircle] :=
  C42_hit_objects_value (by decide) (s := twoText) (by decide) (by decide)
    (List.forall_mem_cons.2 ⟨fun h e => by cases e; exact .inl rfl, List.forall_mem_cons.2 ⟨nofun, fun _ h => absurd h List.not_mem_nil⟩⟩)

example : ∃ s', HitObjects.shw 9 [hoHold, hoCircle] = some s' ∧
    HitObjects.parse 9 s' = .ok ([hoHold, hoCircle].map (hoBack 9)) ∧
      HitObjects.shw 9 ([hoHold, hoCircle].map (hoBack 9)) = some s' :=
  C42_hit_objects_stable (s := twoText) (by decide) (by decide) (fun _ h => absurd h (by decide)) (by decide)
    (fun h => absurd h (by decide))

/-- A hit object line panics only if one of its times overflows, which only versions 3 and 4 can do. -/
theorem C50_hit_object_panic {v : Nat} {s : Str} (h : (HitObject.parse v s : Res HOErr (HitObject D)) = .panic) :
    ∃ x y t rest, splitOnC ',' s = x :: y :: t :: rest ∧ (TimeOverflows D v t ∨
      ∃ ty hs e es, rest = ty :: hs :: e :: es ∧ (TimeOverflows D v e ∨
        ∃ a b, join [','] (e :: es) = a ++ ':' :: b ∧ lacks ':' a ∧ TimeOverflows D v a)) := HitObject.parse_panic h

/-- So outside versions 3 and 4 no text panics. -/
theorem C50_hit_objects_no_panic {v : Nat} (hv : ¬ (3 ≤ v ∧ v ≤ 4)) (s : Str) :
    (HitObjects.parse v s : Res _ (List (HitObject D))) ≠ .panic := by
  intro h
  obtain ⟨l, _, hp⟩ := parseLines_panic h
  have no : ∀ p, ¬ TimeOverflows D v p := fun p hp => hv ⟨hp.1, hp.2.1⟩
  obtain ⟨_, _, _, _, _, h⟩ := HitObject.parse_panic hp
  rcases h with h | ⟨_, _, _, _, _, h | ⟨_, _, _, _, h⟩⟩
  · exact no _ h
  · exact no _ h
  · exact no _ h

/-- The largest number as a time: a panic in version 4, none in version 14. -/
example : ∃ x y t rest, splitOnC ',' c!"1,2,79228162514264337593543950335,1,0" = x :: y :: t :: rest ∧
    (TimeOverflows Dec96 4 t ∨ ∃ ty hs e es, rest = ty :: hs :: e :: es ∧ (TimeOverflows Dec96 4 e ∨
        ∃ a b, join [','] (e :: es) = a ++ ':' :: b ∧ lacks ':' a ∧ TimeOverflows Dec96 4 a)) :=
  C50_hit_object_panic (D := Dec96) (by decide)

example : (HitObjects.parse 14 c!"1,2,79228162514264337593543950335,1,0" : Res _ (List (HitObject Dec96))) ≠ .panic :=
  C50_hit_objects_no_panic (by decide) _

end

/-- In versions 10 and 11 volume and file name of a hit sample are read but lost when writing. -/
theorem C42_hit_objects_v11_sample_lost :
    ∃ (o : HitObject Dec96) (s : Str), HitObject.parse 11 c!"1,2,3,1,0,1:2:3:40:a.wav" = .ok o ∧ o.shw 11 = some s ∧
      ∃ o' : HitObject Dec96, HitObject.parse 11 s = .ok o' ∧ o'.hitsample ≠ o.hitsample :=
  ⟨⟨⟨.left ⟨false, 1, 0⟩, .left ⟨false, 2, 0⟩⟩, .left ⟨false, 3, 0⟩, .hitCircle, false, ⟨0⟩, ⟨false, false, false, false⟩,
      some ⟨.normal, .soft, .index 3, ⟨some 40⟩, c!"a.wav"⟩⟩, c!"1,2,3,1,0,1:2:3", by decide, by decide,
    ⟨⟨.left ⟨false, 1, 0⟩, .left ⟨false, 2, 0⟩⟩, .left ⟨false, 3, 0⟩, .hitCircle, false, ⟨0⟩, ⟨false, false, false, false⟩,
      some ⟨.normal, .soft, .index 3, ⟨none⟩, []⟩⟩, by decide, by decide⟩

/-- Below version 10 the whole hit sample is. -/
theorem C42_hit_objects_v9_sample_lost :
    ∃ (o : HitObject Dec96) (s : Str), HitObject.parse 9 c!"1,2,3,1,0,1:2:3:40:a.wav" = .ok o ∧ o.shw 9 = some s ∧
      ∃ o' : HitObject Dec96, HitObject.parse 9 s = .ok o' ∧ o'.hitsample = none ∧ o.hitsample ≠ none :=
  ⟨⟨⟨.left ⟨false, 1, 0⟩, .left ⟨false, 2, 0⟩⟩, .left ⟨false, 3, 0⟩, .hitCircle, false, ⟨0⟩, ⟨false, false, false, false⟩,
      some ⟨.normal, .soft, .index 3, ⟨some 40⟩, c!"a.wav"⟩⟩, c!"1,2,3,1,0", by decide, by decide,
    ⟨⟨.left ⟨false, 1, 0⟩, .left ⟨false, 2, 0⟩⟩, .left ⟨false, 3, 0⟩, .hitCircle, false, ⟨0⟩, ⟨false, false, false, false⟩,
      none⟩, by decide, by decide, by decide⟩

example : (HitObjects.parse 3 c!"1,2,79228162514264337593543950335,1,0" : Res _ (List (HitObject Dec96))) = .panic := by
  decide

end Osu
