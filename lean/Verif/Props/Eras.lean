/-
C67: at which versions reading and writing change, and that they change nowhere else.
-/
import Verif.Proof.Eras
import Verif.Proof.FilePrint
import Verif.Props.File

namespace Osu
open SB Ev Parser

section
variable {D : Type} [DecLib D]

/-! ## Sections -/

/-- Two versions with no cut between them read the content of a section alike. -/
theorem C67_section_read [UniLib] {n : SName} {v w : Nat} (h : sameEra (readCuts n) v w) (body : Str) :
    n.outcome D v body = n.outcome D w body ∧ ∀ f : OsuFile D, SectReads v f body n ↔ SectReads w f body n := by
  cases n
  · simp only [SName.outcome, SectReads, General.read_era h, implies_true, and_self]
  · simp only [SName.outcome, SectReads, Editor.read_era v w, implies_true, and_self]
  · simp only [SName.outcome, SectReads, Metadata.read_era v w, implies_true, and_self]
  · simp only [SName.outcome, SectReads, Difficulty.read_era v w, implies_true, and_self]
  · simp only [SName.outcome, SectReads, Events.read_era h, implies_true, and_self]
  · simp only [SName.outcome, SectReads, TimingPoints.read_era h, implies_true, and_self]
  · simp only [SName.outcome, SectReads, Colours.read_era h, implies_true, and_self]
  · simp only [SName.outcome, SectReads, HitObjects.read_era h, implies_true, and_self]

/-- Two versions with no cut between them write a section alike. -/
theorem C67_section_write {n : SName} {v w : Nat} (h : sameEra (writeCuts n) v w) (f : OsuFile D) :
    n.written v f = n.written w f := by
  cases n
  · simp only [SName.written, funext fun x => General.write_era (D := D) h x]
  · simp only [SName.written, funext fun x => Editor.write_era (D := D) h x]
  · simp only [SName.written, funext fun x => Metadata.write_era v w x]
  · simp only [SName.written, funext fun x => Difficulty.write_era (D := D) h x]
  · simp only [SName.written, funext fun x => Events.write_era (D := D) h x]
  · simp only [SName.written, funext fun x => TimingPoints.write_era (D := D) h x]
  · simp only [SName.written, funext fun x => Colours.write_era h x]
  · simp only [SName.written, funext fun x => HitObjects.write_era (D := D) h x]

/-! ## Files -/

/-- Two files that differ in the number of the version only, with no cut between the versions, are read alike. -/
theorem C67_read [UniLib] {s s' ws num num' r : Str} {v w : Nat} (hs : Versioned s ws num r) (hv : KnownVersion num v)
    (hs' : Versioned s' ws num' r) (hw : KnownVersion num' w) (h : sameEra fileReadCuts v w) :
    (OsuFile.parse s' : Res (LErr FileErr) (OsuFile D)) = OsuFile.parse s >>= fun g => .ok { g with version := w } := by
  rw [parse_versioned hs hv, parse_versioned hs' hw]
  exact parseRest_era hv.2.1 hw.2.1 h ws r

/-- A file is written alike in two versions with no cut between them. -/
theorem C67_write {f : OsuFile D} {w : Nat} (hv : 3 ≤ f.version) (hw : 3 ≤ w) (h : sameEra fileWriteCuts f.version w) :
    (∃ t, f.shw = some (headed f.version ('\n' :: '\n' :: t)) ∧
      OsuFile.shw { f with version := w } = some (headed w ('\n' :: '\n' :: t))) ∨
    (f.shw = none ∧ OsuFile.shw { f with version := w } = none) :=
  shw_era hv hw h

theorem headed_versioned {v : Nat} (hv : 3 ≤ v ∧ v ≤ 14) {r : Str} (hr : r = [] ∨ ∃ r', r = '\r' :: r' ∨ r = '\n' :: r') :
    Versioned (headed v r) [] (natToStr v) r := by
  have hd := natToStr_digits v
  refine ⟨⟨[], .inl rfl, rfl⟩, by decide, fun h => ?_, fun h => ?_, hr⟩
  · exact absurd (hd _ h) (by decide)
  · exact absurd (hd _ h) (by decide)

/-! ## The cuts are sharp -/

/-- A text whose reading changes at the cut `c`. -/
def cutText : Nat → Str
  | 4 => c!"\n[General]\nSampleSet: Soft"
  | 5 => c!"\n[General]\nCountdown: 1"
  | 6 => c!"\n[TimingPoints]\n0,0,4,1,0,100,1"
  | 7 => c!"\n[General]\nMode: 2"
  | 10 => c!"\n[General]\nMode: 3"
  | _ => c!"\n[General]\nOverlayPosition: Below"

/-- Whether the file was read with a value for some field of the general section. -/
def anyGeneral (r : Res (LErr FileErr) (OsuFile Dec96)) : Bool :=
  match r with
  | .ok f => match f.general with
    | some g => GKey.all.any fun k => (g k).isSome
    | none => false
  | _ => false

section
attribute [local instance] asciiUni

set_option maxRecDepth 8000 in
theorem cutText_general : ∀ c ∈ [4, 5, 7, 10, 14], ∀ v ∈ List.range' 3 12,
    anyGeneral (OsuFile.parse (headed v (cutText c))) = decide (c ≤ v) := by decide

set_option maxRecDepth 8000 in
theorem cutText_timing : ∀ v ∈ List.range' 5 10,
    (OsuFile.parse (headed v (cutText 6)) : Res (LErr FileErr) (OsuFile Dec96)).isOk = decide (v < 6) := by decide

end

/-- A file whose text changes at cuts. -/
def cutFile : Nat → OsuFile Dec96
  | 4 => { OsuFile.new 3 with general := some fun | .sampleSet => some .soft | _ => none }
  | 5 => { OsuFile.new 3 with general := some fun | .countdown => some .normal | _ => none }
  | 6 => { OsuFile.new 3 with general := some fun | .editorBookmarks => some [1] | _ => none }
  | 10 => { OsuFile.new 3 with editor := some fun | .currentTime => some (1 : Int32) | _ => none }
  | 12 => { OsuFile.new 3 with hitobjects := some [⟨⟨.right ['1'], .right ['1']⟩, .right ['1'], .hitCircle, false, ⟨0⟩, ⟨false, false, false, false⟩,
      some ⟨.normal, .normal, .index 1, ⟨some 1⟩, []⟩⟩] }
  | _ => { OsuFile.new 3 with general := some fun | .audioHash => some ['h'] | _ => none }

/-- The length of what follows the number of the version. -/
def bodyLength (v : Nat) (f : OsuFile Dec96) : Option Nat :=
  (OsuFile.shw { f with version := v }).map fun t => t.length - (headed v []).length

theorem bodyLength_alike {v w : Nat} (h : WritesAlike Dec96 v w) (f : OsuFile Dec96) : bodyLength v f = bodyLength w f := by
  unfold bodyLength
  rcases h f with ⟨t, h1, h2⟩ | ⟨h1, h2⟩
  · rw [h1, h2]
    simp only [Option.map_some, headed, List.length_append, List.length_nil, Option.some.injEq]
    omega
  · rw [h1, h2]
    rfl

set_option maxRecDepth 8000 in
theorem cutFile_lengths : ∀ v ∈ List.range' 3 12,
    bodyLength v (cutFile 4) = some (if v < 4 then 12 else 27) ∧
    bodyLength v (cutFile 5) = some (if v < 5 then 12 else 24) ∧
    bodyLength v (cutFile 6) = some (if v < 6 then 30 else 12) ∧
    bodyLength v (cutFile 10) = some (if v < 10 then 11 else if v < 11 then 25 else 11) ∧
    bodyLength v (cutFile 12) = some (if v < 4 then 25 else if v < 10 then 24 else if v < 12 then 30 else 33) ∧
    bodyLength v (cutFile 14) = some (if v < 14 then 24 else 12) := by decide

/-- Two versions write every file alike exactly if no cut is between them. -/
theorem C67_write_exact {v w : Nat} (hv : 3 ≤ v ∧ v ≤ 14) (hw : 3 ≤ w ∧ w ≤ 14) :
    sameEra fileWriteCuts v w ↔ WritesAlike Dec96 v w := by
  constructor
  · intro h f
    rcases C67_write (f := { f with version := v }) hv.1 hw.1 h with ⟨t, h⟩ | h
    · exact .inl ⟨_, h⟩
    · exact .inr h
  · intro h
    obtain ⟨a1, a2, a3, a4, a5, a6⟩ := cutFile_lengths v (by simp only [List.mem_range'_1]; omega)
    obtain ⟨b1, b2, b3, b4, b5, b6⟩ := cutFile_lengths w (by simp only [List.mem_range'_1]; omega)
    have h1 := bodyLength_alike h (cutFile 4)
    have h2 := bodyLength_alike h (cutFile 5)
    have h3 := bodyLength_alike h (cutFile 6)
    have h4 := bodyLength_alike h (cutFile 10)
    have h5 := bodyLength_alike h (cutFile 12)
    have h6 := bodyLength_alike h (cutFile 14)
    rw [a1, b1, Option.some.injEq] at h1
    rw [a2, b2, Option.some.injEq] at h2
    rw [a3, b3, Option.some.injEq] at h3
    rw [a4, b4, Option.some.injEq] at h4
    rw [a5, b5, Option.some.injEq] at h5
    rw [a6, b6, Option.some.injEq] at h6
    have g1 : v < 4 ↔ w < 4 := by revert h1; repeat' split
                                  all_goals omega
    have g2 : v < 5 ↔ w < 5 := by revert h2; repeat' split
                                  all_goals omega
    have g3 : v < 6 ↔ w < 6 := by revert h3; repeat' split
                                  all_goals omega
    have g4 : v = 10 ↔ w = 10 := by revert h4; repeat' split
                                    all_goals omega
    have g5 : (v < 10 ↔ w < 10) ∧ (v < 12 ↔ w < 12) := by revert h5; repeat' split
                                                          all_goals omega
    have g6 : v < 14 ↔ w < 14 := by revert h6; repeat' split
                                    all_goals omega
    clear a1 a2 a3 a4 a5 a6 b1 b2 b3 b4 b5 b6 h h1 h2 h3 h4 h5 h6
    simp only [sameEra, fileWriteCuts, List.mem_cons, List.not_mem_nil, or_false, forall_eq_or_imp, forall_eq]
    omega

section
attribute [local instance] asciiUni

theorem anyGeneral_version (r : Res (LErr FileErr) (OsuFile Dec96)) (w : Nat) :
    anyGeneral (r >>= fun g => .ok { g with version := w }) = anyGeneral r := by
  cases r <;> rfl

theorem isOk_version (r : Res (LErr FileErr) (OsuFile Dec96)) (w : Nat) :
    (r >>= fun g => (.ok { g with version := w } : Res (LErr FileErr) (OsuFile Dec96))).isOk = r.isOk := by
  cases r <;> rfl

theorem cutText_feed (c : Nat) : cutText c = [] ∨ ∃ r', cutText c = '\r' :: r' ∨ cutText c = '\n' :: r' := by
  unfold cutText
  split <;> exact .inr ⟨_, .inr rfl⟩

/-- Two versions read every file alike exactly if no cut is between them. -/
theorem C67_read_exact {v w : Nat} (hv : 3 ≤ v ∧ v ≤ 14) (hw : 3 ≤ w ∧ w ≤ 14) :
    sameEra fileReadCuts v w ↔ ReadsAlike Dec96 v w := by
  constructor
  · intro h r hr
    exact C67_read (headed_versioned hv hr) (known_nat hv) (headed_versioned hw hr) (known_nat hw) h
  · intro h
    have mv : v ∈ List.range' 3 12 := by simp only [List.mem_range'_1]; omega
    have mw : w ∈ List.range' 3 12 := by simp only [List.mem_range'_1]; omega
    have key : ∀ c ∈ [4, 5, 7, 10, 14], c ≤ v ↔ c ≤ w := by
      intro c hc
      have e := congrArg anyGeneral (h (cutText c) (cutText_feed c))
      rw [anyGeneral_version, cutText_general c hc v mv, cutText_general c hc w mw] at e
      exact (decide_eq_decide.1 e).symm
    have k6 : 5 ≤ v → 5 ≤ w → (v < 6 ↔ w < 6) := by
      intro h1 h2
      have e := congrArg Res.isOk (h (cutText 6) (cutText_feed 6))
      rw [isOk_version, cutText_timing v (by simp only [List.mem_range'_1]; omega),
        cutText_timing w (by simp only [List.mem_range'_1]; omega)] at e
      exact (decide_eq_decide.1 e).symm
    simp only [List.mem_cons, List.not_mem_nil, or_false, forall_eq_or_imp, forall_eq] at key
    simp only [sameEra, fileReadCuts, List.mem_cons, List.not_mem_nil, or_false, forall_eq_or_imp, forall_eq]
    omega

end

/-! ## Consequences -/

/-- Writing in another version of the same writing era and reading in the same reading era loses nothing that was kept before. -/
theorem C67_upgrade {f g : OsuFile D} {w : Nat} [UniLib] (hv : 3 ≤ f.version ∧ f.version ≤ 14) (hw : 3 ≤ w ∧ w ≤ 14)
    (hr : sameEra fileReadCuts f.version w) (hs : sameEra fileWriteCuts f.version w) {t t' : Str} (h : f.shw = some t)
    (h' : OsuFile.shw { f with version := w } = some t') (hp : OsuFile.parse t = .ok g) :
    OsuFile.parse t' = .ok { g with version := w } := by
  rcases C67_write hv.1 hw.1 hs with ⟨u, h1, h2⟩ | ⟨h1, -⟩
  · rw [h] at h1
    rw [h'] at h2
    cases h1
    cases h2
    have hu : ('\n' :: '\n' :: u) = [] ∨ ∃ r', ('\n' :: '\n' :: u) = '\r' :: r' ∨ ('\n' :: '\n' :: u) = '\n' :: r' :=
      .inr ⟨_, .inr rfl⟩
    rw [C67_read (headed_versioned hv hu) (known_nat hv) (headed_versioned hw hu) (known_nat hw) hr, hp]
    rfl
  · rw [h] at h1
    cases h1

/-! ## Examples -/

section
attribute [local instance] asciiUni

/-- Versions 10 to 13 read alike, versions 12 and 13 also write alike. -/
example : sameEra fileReadCuts 10 13 ∧ sameEra fileWriteCuts 12 13 ∧ ¬sameEra fileReadCuts 13 14 ∧ ¬sameEra fileWriteCuts 10 11 := by
  unfold sameEra; decide

example : sameEra (readCuts .events) 5 14 ∧ sameEra (writeCuts .hitobjects) 5 9 := by unfold sameEra; decide

/-- The hypotheses of `C67_read`: a byte order mark and a sign in one header only, and an error on the same line. -/
example : (OsuFile.parse (c!"\n﻿osu file format v12" ++ c!"\n[General]\nMode: 3\nMode: 3") : Res (LErr FileErr) (OsuFile Dec96)) =
    OsuFile.parse (c!"\nosu file format v+10" ++ c!"\n[General]\nMode: 3\nMode: 3") >>= fun g => .ok { g with version := 12 } :=
  C67_read (ws := ['\n']) (num := c!"+10") (num' := c!"12") (r := c!"\n[General]\nMode: 3\nMode: 3") (v := 10) (w := 12)
    ⟨⟨[], .inl rfl, rfl⟩, by decide, by decide, by decide, .inr ⟨_, .inr rfl⟩⟩ (knownVersion_iff.2 ⟨10, by decide, rfl, by decide, by decide⟩)
    ⟨⟨_, .inr rfl, rfl⟩, by decide, by decide, by decide, .inr ⟨_, .inr rfl⟩⟩ (knownVersion_iff.2 ⟨12, by decide, rfl, by decide, by decide⟩)
    (by unfold sameEra; decide)

/-- The hypotheses of `C67_upgrade`. -/
example : ∃ t t', ∃ g : OsuFile Dec96, (OsuFile.shw { cutFile 14 with version := 12 }) = some t ∧ (OsuFile.shw { cutFile 14 with version := 13 }) = some t' ∧
    OsuFile.parse t = .ok g ∧ OsuFile.parse t' = .ok { g with version := 13 } := by
  obtain ⟨g, hg⟩ := Res.of_isOk (r := (OsuFile.parse (headed 12 c!"\n\n[General]\nAudioHash: h") : Res _ (OsuFile Dec96))) (by decide)
  refine ⟨headed 12 c!"\n\n[General]\nAudioHash: h", headed 13 c!"\n\n[General]\nAudioHash: h", g, by decide, by decide, hg, ?_⟩
  exact C67_upgrade (f := { cutFile 14 with version := 12 }) (w := 13) (by decide) (by decide) (by unfold sameEra; decide)
    (by unfold sameEra; decide) (by decide) (by decide) hg

end

end

section
attribute [local instance] asciiUni

example (body : Str) : SName.events.outcome Dec96 5 body = SName.events.outcome Dec96 14 body :=
  (C67_section_read (n := .events) (by unfold sameEra; decide) body).1
example (f : OsuFile Dec96) : SName.hitobjects.written 5 f = SName.hitobjects.written 9 f :=
  C67_section_write (by unfold sameEra; decide) f
example : (∃ t, (OsuFile.new 12 : OsuFile Dec96).shw = some (headed 12 ('\n' :: '\n' :: t)) ∧
      OsuFile.shw { (OsuFile.new 12 : OsuFile Dec96) with version := 13 } = some (headed 13 ('\n' :: '\n' :: t))) ∨
    ((OsuFile.new 12 : OsuFile Dec96).shw = none ∧ OsuFile.shw { (OsuFile.new 12 : OsuFile Dec96) with version := 13 } = none) :=
  C67_write (by decide) (by decide) (by unfold sameEra; decide)
example : WritesAlike Dec96 12 13 ∧ ¬WritesAlike Dec96 11 12 :=
  ⟨(C67_write_exact (by decide) (by decide)).1 (by unfold sameEra; decide), fun h => by
    have := (C67_write_exact (by decide) (by decide)).2 h
    unfold sameEra at this
    revert this
    decide⟩
example : ReadsAlike Dec96 10 13 ∧ ¬ReadsAlike Dec96 9 10 :=
  ⟨(C67_read_exact (by decide) (by decide)).1 (by unfold sameEra; decide), fun h => by
    have := (C67_read_exact (by decide) (by decide)).2 h
    unfold sameEra at this
    revert this
    decide⟩

end

end Osu
