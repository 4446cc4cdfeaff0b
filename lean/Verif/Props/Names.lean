/-
C80: the names, letters and numbers of the enumerations.
-/
import Verif.Spec.Names
import Verif.Props.FieldTables
import Verif.Props.TimingPoints
import Verif.Props.HitObjects
import Verif.Props.Storyboard
import Verif.Props.Events

namespace Osu

/-! ### Names and letters -/

/-- C80: the letters of the curve types, read and written. -/
theorem C80_curve_type (s : Str) (a : HO.CurveType) :
    (HO.CurveType.parse s = .ok a ↔ (a, s) ∈ curveLetters) ∧ (a.shw = s ↔ (a, s) ∈ curveLetters) := by
  have h : a.shw = s ↔ (a, s) ∈ curveLetters := by
    cases a <;> simp [curveLetters, HO.CurveType.shw, eq_comm (b := s)]
  exact ⟨by rw [C25_curve_type, eq_comm]; exact h, h⟩

example : HO.CurveType.parse c!"P" = .ok .perfectCircle ∧ ∀ a, HO.CurveType.parse c!"b" ≠ .ok a :=
  ⟨by decide, fun a h => by have := (C80_curve_type _ a).1.1 h; simp [curveLetters] at this⟩

/-- C80: the letters of the parameters, read and written. -/
theorem C80_parameter (s : Str) (a : SB.Parameter) :
    (SB.Parameter.parse s = .ok a ↔ (a, s) ∈ parameterLetters) ∧ (a.shw = s ↔ (a, s) ∈ parameterLetters) := by
  refine ⟨⟨fun h => ?_, fun h => ?_⟩, ?_⟩
  · unfold SB.Parameter.parse at h
    repeat' split at h
    all_goals (cases h <;> (rename_i hs; subst hs; decide))
  · simp only [parameterLetters, List.mem_cons, List.not_mem_nil, or_false, Prod.mk.injEq] at h
    rcases h with ⟨rfl, rfl⟩ | ⟨rfl, rfl⟩ | ⟨rfl, rfl⟩ <;> decide
  · cases a <;> simp [parameterLetters, SB.Parameter.shw, eq_comm (b := s)]

example : SB.Parameter.parse c!"A" = .ok .useAdditiveColourBlending ∧ SB.Parameter.parse c!"a" = .err () := ⟨by rfl, by rfl⟩

/-- C80: the names of the layers, read and written. -/
theorem C80_layer (s : Str) (a : SB.Layer) :
    (SB.Layer.parse s = .ok a ↔ (a, s) ∈ layerNames) ∧ (a.shw = s ↔ (a, s) ∈ layerNames) := by
  refine ⟨⟨fun h => ?_, fun h => ?_⟩, ?_⟩
  · unfold SB.Layer.parse at h
    repeat' split at h
    all_goals (cases h <;> (rename_i hs; subst hs; decide))
  · simp only [layerNames, List.mem_cons, List.not_mem_nil, or_false, Prod.mk.injEq] at h
    rcases h with ⟨rfl, rfl⟩ | ⟨rfl, rfl⟩ | ⟨rfl, rfl⟩ | ⟨rfl, rfl⟩ | ⟨rfl, rfl⟩ <;> rfl
  · cases a <;> simp [layerNames, SB.Layer.shw, eq_comm (b := s)]

example : SB.Layer.parse c!"Foreground" = .ok .foreground ∧ SB.Layer.parse c!"3" = .err () := ⟨by rfl, by rfl⟩

/-- C80: the names of the loop types, read and written. -/
theorem C80_loop_type (s : Str) (a : SB.LoopType) :
    (SB.LoopType.parse s = .ok a ↔ (a, s) ∈ loopNames) ∧ (a.shw = s ↔ (a, s) ∈ loopNames) := by
  refine ⟨⟨fun h => ?_, fun h => ?_⟩, ?_⟩
  · unfold SB.LoopType.parse at h
    repeat' split at h
    all_goals (cases h <;> (rename_i hs; subst hs; decide))
  · simp only [loopNames, List.mem_cons, List.not_mem_nil, or_false, Prod.mk.injEq] at h
    rcases h with ⟨rfl, rfl⟩ | ⟨rfl, rfl⟩ <;> rfl
  · cases a <;> simp [loopNames, SB.LoopType.shw, eq_comm (b := s)]

example : SB.LoopType.parse c!"LoopOnce" = .ok .loopOnce ∧ SB.LoopType.parse c!"Loop" = .err () := ⟨by rfl, by rfl⟩

/-- C80: the names of the sample sets and of the additions in the hit sound of a trigger, read and written. -/
theorem C80_trigger_words (s : Str) (a : SB.SampleSet) (b : SB.Addition) :
    (SB.SampleSet.parse s = some a ↔ (a, s) ∈ triggerSets) ∧ (a.shw = s ↔ (a, s) ∈ triggerSets) ∧
      (SB.Addition.parse s = some b ↔ (b, s) ∈ triggerAdditions) ∧ (b.shw = s ↔ (b, s) ∈ triggerAdditions) := by
  refine ⟨⟨fun h => ?_, fun h => ?_⟩, ?_, ⟨fun h => ?_, fun h => ?_⟩, ?_⟩
  · unfold SB.SampleSet.parse at h
    repeat' split at h
    all_goals (cases h <;> (rename_i hs; subst hs; decide))
  · simp only [triggerSets, List.mem_cons, List.not_mem_nil, or_false, Prod.mk.injEq] at h
    rcases h with ⟨rfl, rfl⟩ | ⟨rfl, rfl⟩ | ⟨rfl, rfl⟩ | ⟨rfl, rfl⟩ <;> rfl
  · cases a <;> simp [triggerSets, SB.SampleSet.shw, eq_comm (b := s)]
  · unfold SB.Addition.parse at h
    repeat' split at h
    all_goals (cases h <;> (rename_i hs; subst hs; decide))
  · simp only [triggerAdditions, List.mem_cons, List.not_mem_nil, or_false, Prod.mk.injEq] at h
    rcases h with ⟨rfl, rfl⟩ | ⟨rfl, rfl⟩ | ⟨rfl, rfl⟩ <;> rfl
  · cases b <;> simp [triggerAdditions, SB.Addition.shw, eq_comm (b := s)]

example : SB.SampleSet.parse c!"Drum" = some .drum ∧ SB.Addition.parse c!"Clap" = some .clap ∧ SB.Addition.parse c!"Drum" = none :=
  ⟨by rfl, by rfl, by rfl⟩

/-- C80: the origin of a storyboard object is read as a name, as the number of an origin, or as any other number; it is
written as it was read, a name as a name and a number as a number. -/
theorem C80_origin (s : Str) (o : SB.Origin) :
    (SB.Origin.parse s = .ok o ↔
      (∃ t, (t, s) ∈ originNames ∧ o = ⟨.inl t, false⟩) ∨
      (∃ t n, NumberOf originTypes t n ∧ IsNumeral s n ∧ o = ⟨.inl t, true⟩) ∨
      ∃ n : Int32, (n.toInt < 0 ∨ 9 < n.toInt) ∧ IsNumeral s n.toInt ∧ o = ⟨.inr n, true⟩) ∧
    (o.shw = s ↔
      (∃ t, (t, s) ∈ originNames ∧ o = ⟨.inl t, false⟩) ∨
      (∃ t n, NumberOf originTypes t n ∧ PlainInt s n ∧ o = ⟨.inl t, true⟩) ∨
      ∃ n : Int32, PlainInt s n.toInt ∧ o.type = .inr n) := by
  have name : ∀ t : SB.OriginType, t.shw = s ↔ (t, s) ∈ originNames := by
    intro t; cases t <;> simp [originNames, SB.OriginType.shw, eq_comm (b := s)]
  have num : ∀ (t : SB.OriginType) (n : Int), NumberOf originTypes t n ↔ t.toInt.toInt = n := by
    intro t n
    constructor
    · rintro ⟨i, hi, rfl⟩
      have h : ∀ i : Fin 10, (originTypes[i]).toInt.toInt = (i : Nat) := by decide
      obtain ⟨hlt, he⟩ := List.getElem?_eq_some_iff.1 hi
      have := h ⟨i, hlt⟩
      simp only [Fin.getElem_fin] at this
      rw [he] at this; exact this
    · rintro rfl
      cases t
      · exact ⟨0, rfl, by decide⟩
      · exact ⟨1, rfl, by decide⟩
      · exact ⟨2, rfl, by decide⟩
      · exact ⟨3, rfl, by decide⟩
      · exact ⟨4, rfl, by decide⟩
      · exact ⟨5, rfl, by decide⟩
      · exact ⟨6, rfl, by decide⟩
      · exact ⟨7, rfl, by decide⟩
      · exact ⟨8, rfl, by decide⟩
      · exact ⟨9, rfl, by decide⟩
  constructor
  · rw [origin_iff]
    constructor
    · intro h
      cases h with
      | name t => exact .inl ⟨t, (name t).1 rfl, rfl⟩
      | @code s n t h h0 ht =>
        exact .inr (.inl ⟨t, n.toInt, ⟨_, ht, by omega⟩, (C01_i32_accepts _ _).1 h, rfl⟩)
      | @other s n h hn => exact .inr (.inr ⟨n, hn, (C01_i32_accepts _ _).1 h, rfl⟩)
    · rintro (⟨t, h, rfl⟩ | ⟨t, n, h, hs, rfl⟩ | ⟨n, hn, hs, rfl⟩)
      · rw [← (name t).2 h]; exact .name t
      · have hn := (num t n).1 h
        obtain ⟨i, hi, rfl⟩ := h
        refine .code (n := t.toInt) ((C01_i32_accepts _ _).2 (by rw [hn]; exact hs)) (by omega) ?_
        rw [hn]; exact hi
      · exact .other ((C01_i32_accepts _ _).2 hs) hn
  · obtain ⟨ty, sh⟩ := o
    cases ty with
    | inl t =>
      cases sh
      · have : (⟨.inl t, false⟩ : SB.Origin).shw = t.shw := rfl
        rw [this, name t]
        simp
      · have : (⟨.inl t, true⟩ : SB.Origin).shw = i32ToStr t.toInt := rfl
        rw [this, eq_comm, C01_printed]
        simp only [SB.Origin.mk.injEq, Sum.inl.injEq, Bool.true_eq_false, and_false, exists_false, false_or, reduceCtorEq,
          or_false, and_true]
        constructor
        · intro h; exact ⟨t, _, (num t _).2 rfl, h, rfl⟩
        · rintro ⟨t', n, h, hp, rfl⟩; rw [(num t n).1 h]; exact hp
    | inr n =>
      have : (⟨.inr n, sh⟩ : SB.Origin).shw = i32ToStr n := by cases sh <;> rfl
      rw [this, eq_comm, C01_printed]
      simp

example : SB.Origin.parse c!"BottomLeft" = .ok ⟨.inl .bottomLeft, false⟩ ∧ SB.Origin.parse c!"08" = .ok ⟨.inl .bottomLeft, true⟩ ∧
    (⟨.inl .bottomLeft, true⟩ : SB.Origin).shw = c!"8" ∧ SB.Origin.parse c!"-1" = .ok ⟨.inr (-1), true⟩ := ⟨by rfl, by rfl, by rfl, by rfl⟩

/-! ### Numbers -/

/-- A table given by the number of each entry. -/
theorem numberOf_iff {α : Type} {table : List α} {f : α → Int} (h : ∀ i : Fin table.length, f table[i] = (i : Nat)) {a : α}
    (ha : a ∈ table) (n : Int) : NumberOf table a n ↔ f a = n := by
  constructor
  · rintro ⟨i, hi, rfl⟩
    obtain ⟨hlt, he⟩ := List.getElem?_eq_some_iff.1 hi
    have := h ⟨i, hlt⟩
    simp only [Fin.getElem_fin] at this
    rw [he] at this; exact this
  · rintro rfl
    obtain ⟨i, hlt, he⟩ := List.getElem_of_mem ha
    refine ⟨i, by rw [List.getElem?_eq_getElem hlt, he], ?_⟩
    have := h ⟨i, hlt⟩
    simp only [Fin.getElem_fin] at this
    rw [he] at this; exact this

theorem easing_byNumber (n : Int32) : SB.Easing.ofInt n = byNumber easings (.other n) n.toInt := by
  by_cases h : 0 ≤ n.toInt ∧ n.toInt ≤ 34
  · rcases SB.Easing.named_cases h with rfl | rfl | rfl | rfl | rfl | rfl | rfl | rfl | rfl | rfl | rfl | rfl | rfl | rfl | rfl | rfl | rfl |
      rfl | rfl | rfl | rfl | rfl | rfl | rfl | rfl | rfl | rfl | rfl | rfl | rfl | rfl | rfl | rfl | rfl | rfl <;> rfl
  · rw [SB.Easing.ofInt_other h]
    unfold byNumber
    split
    · rw [List.getElem?_eq_none]
      · rfl
      · show 35 ≤ _
        omega
    · rfl

/-- C80: an easing is read from any number, 0 to 34 in the order of the table, and written as its number. -/
theorem C80_easing (s : Str) (a : SB.Easing) :
    ((∃ n, parseI32 s = .ok n ∧ a = SB.Easing.ofInt n) ↔
      ∃ n : Int32, IsNumeral s n.toInt ∧ a = byNumber easings (.other n) n.toInt) ∧
    (a.shw = s ↔ ∃ n, PlainInt s n ∧ (NumberOf easings a n ∨ ∃ k : Int32, a = .other k ∧ n = k.toInt)) := by
  constructor
  · simp only [C01_i32_accepts, easing_byNumber]
  · have h0 : ∀ i : Fin easings.length, (easings[i]).toInt.toInt = (i : Nat) := by decide
    rw [SB.Easing.shw, eq_comm, C01_printed]
    by_cases h : a ∈ easings
    · constructor
      · exact fun hp => ⟨_, hp, .inl ((numberOf_iff (f := fun e => e.toInt.toInt) h0 h _).2 rfl)⟩
      · rintro ⟨n, hp, hn | ⟨k, rfl, -⟩⟩
        · have : a.toInt.toInt = n := (numberOf_iff (f := fun e => e.toInt.toInt) h0 h _).1 hn
          rw [this]; exact hp
        · simp [easings] at h
    · obtain ⟨k, rfl⟩ : ∃ k, a = .other k := by
        cases a with
        | other k => exact ⟨k, rfl⟩
        | _ => exact absurd (by decide) h
      constructor
      · exact fun hp => ⟨_, hp, .inr ⟨k, rfl, rfl⟩⟩
      · rintro ⟨n, hp, ⟨i, hi, -⟩ | ⟨k', hk, rfl⟩⟩
        · exact absurd (List.mem_of_getElem? hi) h
        · cases hk; exact hp

example : byNumber easings (.other 27) 27 = .elasticQuarterOut ∧ byNumber easings (.other 35) 35 = .other 35 := ⟨rfl, rfl⟩

theorem pointSet_byNumber (n : Int32) : TP.SampleSet.ofInt n = byNumber pointSets (.other n) n.toInt := by
  by_cases h : 0 ≤ n.toInt ∧ n.toInt ≤ 3
  · have : n.toInt = 0 ∨ n.toInt = 1 ∨ n.toInt = 2 ∨ n.toInt = 3 := by omega
    have e : n = Int32.ofInt n.toInt := (Int32.ofInt_toInt n).symm
    rcases this with h | h | h | h <;> (rw [h] at e ⊢; subst e; rfl)
  · have h' : ∀ k : Int32, 0 ≤ k.toInt ∧ k.toInt ≤ 3 → n ≠ k := by rintro k hk rfl; exact h hk
    unfold TP.SampleSet.ofInt
    rw [if_neg (h' 0 (by decide)), if_neg (h' 1 (by decide)), if_neg (h' 2 (by decide)), if_neg (h' 3 (by decide))]
    unfold byNumber
    split
    · rw [List.getElem?_eq_none]
      · rfl
      · show 4 ≤ _
        omega
    · rfl

/-- C80: a sample set of a timing point is read from any number, 0 to 3 in the order of the table, and written as its
number. -/
theorem C80_point_sample_set (s : Str) (a : TP.SampleSet) :
    (TP.SampleSet.parse s = .ok a ↔ ∃ n : Int32, IsNumeral s n.toInt ∧ a = byNumber pointSets (.other n) n.toInt) ∧
    (a.shw = s ↔ ∃ n, PlainInt s n ∧ (NumberOf pointSets a n ∨ ∃ k : Int32, a = .other k ∧ n = k.toInt)) := by
  constructor
  · unfold TP.SampleSet.parse
    rw [Res.bind_eq_ok]
    simp only [C01_i32_accepts, pointSet_byNumber, Res.ok.injEq, eq_comm (b := a)]
  · have h0 : ∀ i : Fin pointSets.length, (pointSets[i]).toInt.toInt = (i : Nat) := by decide
    rw [TP.SampleSet.shw, eq_comm, C01_printed]
    by_cases h : a ∈ pointSets
    · constructor
      · exact fun hp => ⟨_, hp, .inl ((numberOf_iff (f := fun e => e.toInt.toInt) h0 h _).2 rfl)⟩
      · rintro ⟨n, hp, hn | ⟨k, rfl, -⟩⟩
        · have : a.toInt.toInt = n := (numberOf_iff (f := fun e => e.toInt.toInt) h0 h _).1 hn
          rw [this]; exact hp
        · simp [pointSets] at h
    · obtain ⟨k, rfl⟩ : ∃ k, a = .other k := by
        cases a with
        | other k => exact ⟨k, rfl⟩
        | _ => exact absurd (by decide) h
      constructor
      · exact fun hp => ⟨_, hp, .inr ⟨k, rfl, rfl⟩⟩
      · rintro ⟨n, hp, ⟨i, hi, -⟩ | ⟨k', hk, rfl⟩⟩
        · exact absurd (List.mem_of_getElem? hi) h
        · cases hk; exact hp

example : TP.SampleSet.parse c!"+02" = .ok .soft ∧ TP.SampleSet.soft.shw = c!"2" ∧ TP.SampleSet.parse c!"-2" = .ok (.other (-2)) := by
  decide

theorem objectSet_byNumber (n : UInt64) : HO.SampleSet.ofCode n = byNumber objectSets (.other n) n.toNat := by
  by_cases h : n.toNat ≤ 3
  · have : n.toNat = 0 ∨ n.toNat = 1 ∨ n.toNat = 2 ∨ n.toNat = 3 := by omega
    have e : n = UInt64.ofNat n.toNat := (UInt64.ofNat_toNat).symm
    rcases this with h | h | h | h <;> (rw [h] at e ⊢; subst e; rfl)
  · have h' : ∀ k : UInt64, k.toNat ≤ 3 → n ≠ k := by rintro k hk rfl; exact h hk
    unfold HO.SampleSet.ofCode
    rw [if_neg (h' 0 (by decide)), if_neg (h' 1 (by decide)), if_neg (h' 2 (by decide)), if_neg (h' 3 (by decide))]
    unfold byNumber
    rw [if_pos (by omega), List.getElem?_eq_none]
    · rfl
    · show 4 ≤ _
      omega

/-- C80: a sample set of a hit object is read from any unsigned number, 0 to 3 in the order of the table, and written as its
number. -/
theorem C80_object_sample_set (s : Str) (a : HO.SampleSet) :
    (HO.SampleSet.parse s = .ok a ↔ ∃ n : UInt64, IsUNumeral s n.toNat ∧ a = byNumber objectSets (.other n) n.toNat) ∧
    (a.shw = s ↔ ∃ n : Nat, PlainNat s n ∧ (NumberOf objectSets a n ∨ ∃ k : UInt64, a = .other k ∧ n = k.toNat)) := by
  constructor
  · unfold HO.SampleSet.parse
    rw [Res.bind_eq_ok]
    simp only [C01_usize_accepts, objectSet_byNumber, Res.ok.injEq, eq_comm (b := a)]
  · have h0 : ∀ i : Fin objectSets.length, ((objectSets[i]).code.toNat : Int) = (i : Nat) := by decide
    rw [HO.SampleSet.shw, eq_comm, usizeToStr, ← plainNat_iff]
    by_cases h : a ∈ objectSets
    · constructor
      · exact fun hp => ⟨_, hp, .inl ((numberOf_iff (f := fun e => (e.code.toNat : Int)) h0 h _).2 rfl)⟩
      · rintro ⟨n, hp, hn | ⟨k, rfl, -⟩⟩
        · have : (a.code.toNat : Int) = n := (numberOf_iff (f := fun e => (e.code.toNat : Int)) h0 h _).1 hn
          rw [Int.ofNat_inj.1 this]; exact hp
        · simp [objectSets] at h
    · obtain ⟨k, rfl⟩ : ∃ k, a = .other k := by
        cases a with
        | other k => exact ⟨k, rfl⟩
        | _ => exact absurd (by decide) h
      constructor
      · exact fun hp => ⟨_, hp, .inr ⟨k, rfl, rfl⟩⟩
      · rintro ⟨n, hp, ⟨i, hi, -⟩ | ⟨k', hk, rfl⟩⟩
        · exact absurd (List.mem_of_getElem? hi) h
        · cases hk; exact hp

example : HO.SampleSet.parse c!"3" = .ok .drum ∧ HO.SampleSet.drum.shw = c!"3" ∧ HO.SampleSet.parse c!"4" = .ok (.other 4) := by decide

/-- C80: a sample index of a timing point: 0 stands for the default sounds, any other number for itself; above `i32::MAX` it
is written as a negative number. -/
theorem C80_point_sample_index (s : Str) (a : TP.SampleIndex) :
    (TP.SampleIndex.parse s = .ok a ↔
      (IsUNumeral s 0 ∧ a = .osuDefaultHitsounds) ∨ ∃ n : UInt32, n.toNat ≠ 0 ∧ IsUNumeral s n.toNat ∧ a = .index n) ∧
    (a.shw = s ↔ PlainInt s (pointIndexNo a)) := by
  constructor
  · unfold TP.SampleIndex.parse TP.SampleIndex.ofU32
    rw [Res.bind_eq_ok]
    simp only [C01_u32_accepts, Res.ok.injEq]
    constructor
    · rintro ⟨n, hs, rfl⟩
      split
      · rename_i h; subst h; exact .inl ⟨hs, rfl⟩
      · rename_i h; exact .inr ⟨n, fun h' => h (UInt32.toNat_inj.1 h'), hs, rfl⟩
    · rintro (⟨hs, rfl⟩ | ⟨n, h0, hs, rfl⟩)
      · exact ⟨0, hs, rfl⟩
      · exact ⟨n, hs, if_neg (by rintro rfl; exact h0 rfl)⟩
  · rw [TP.SampleIndex.shw, eq_comm, C01_printed]
    cases a with
    | osuDefaultHitsounds => exact Iff.rfl
    | index n =>
      have : n.toInt32.toInt = pointIndexNo (.index n) := by
        have h1 : n.toInt32.toInt = (n.toNat : Int).bmod (2 ^ 32) := by
          rw [Int32.toInt, UInt32.toBitVec_toInt32, BitVec.toInt_eq_toNat_bmod]; rfl
        have h2 := n.toNat_lt
        rw [h1]
        show _ = if n.toNat ≤ 2147483647 then (n.toNat : Int) else (n.toNat : Int) - 4294967296
        unfold Int.bmod
        dsimp only
        split <;> split <;> omega
      show PlainInt s n.toInt32.toInt ↔ _
      rw [this]

example : TP.SampleIndex.parse c!"0" = .ok .osuDefaultHitsounds ∧ TP.SampleIndex.parse c!"7" = .ok (.index 7) ∧
    (TP.SampleIndex.index 4294967295).shw = c!"-1" := by decide

/-- C80: volume and effects of a timing point are their numbers. -/
theorem C80_point_numbers (s : Str) (v : TP.Volume) (e : TP.Effects) :
    (TP.Volume.parse s = .ok v ↔ IsNumeral s v.val.toInt) ∧ (v.shw = s ↔ PlainInt s v.val.toInt) ∧
      (TP.Effects.parse s = .ok e ↔ IsUNumeral s e.bits.toNat) ∧ (e.shw = s ↔ PlainNat s e.bits.toNat) := by
  refine ⟨?_, ?_, ?_, ?_⟩
  · unfold TP.Volume.parse
    rw [Res.bind_eq_ok]
    simp only [C01_i32_accepts, Res.ok.injEq]
    exact ⟨by rintro ⟨n, h, rfl⟩; exact h, fun h => ⟨_, h, rfl⟩⟩
  · rw [TP.Volume.shw, eq_comm, C01_printed]
  · unfold TP.Effects.parse
    rw [Res.bind_eq_ok]
    simp only [C01_u32_accepts, Res.ok.injEq]
    exact ⟨by rintro ⟨n, h, rfl⟩; exact h, fun h => ⟨_, h, rfl⟩⟩
  · rw [TP.Effects.shw, eq_comm, u32ToStr, ← plainNat_iff]

example : TP.Volume.parse c!"-70" = .ok ⟨-70⟩ ∧ TP.Effects.parse c!"9" = .ok ⟨9⟩ := by decide

/-- C80: a sample index of a hit object: 0 stands for that of the timing point, any other number for itself. -/
theorem C80_object_sample_index (s : Str) (a : HO.SampleIndex) :
    (HO.SampleIndex.parse s = .ok a ↔
      (IsUNumeral s 0 ∧ a = .timingPoint) ∨ ∃ n : UInt64, n.toNat ≠ 0 ∧ IsUNumeral s n.toNat ∧ a = .index n) ∧
    (a.shw = s ↔ (PlainNat s 0 ∧ a = .timingPoint) ∨ ∃ n : UInt64, PlainNat s n.toNat ∧ a = .index n) := by
  constructor
  · unfold HO.SampleIndex.parse HO.SampleIndex.ofCode
    rw [Res.bind_eq_ok]
    simp only [C01_usize_accepts, Res.ok.injEq]
    constructor
    · rintro ⟨n, hs, rfl⟩
      split
      · rename_i h; subst h; exact .inl ⟨hs, rfl⟩
      · rename_i h; exact .inr ⟨n, fun h' => h (UInt64.toNat_inj.1 h'), hs, rfl⟩
    · rintro (⟨hs, rfl⟩ | ⟨n, h0, hs, rfl⟩)
      · exact ⟨0, hs, rfl⟩
      · exact ⟨n, hs, if_neg (by rintro rfl; exact h0 rfl)⟩
  · rw [HO.SampleIndex.shw, eq_comm, usizeToStr, ← plainNat_iff]
    cases a with
    | timingPoint => simp [HO.SampleIndex.code]
    | index n => simp [HO.SampleIndex.code]

example : HO.SampleIndex.parse c!"00" = .ok .timingPoint ∧ HO.SampleIndex.parse c!"12" = .ok (.index 12) := by decide

/-- C80: a volume of a hit object is a number up to 100; 0 stands for the volume of the timing point. -/
theorem C80_object_volume (s : Str) (a : HO.Volume) :
    (HO.Volume.parse s = .ok a ↔
      (IsUNumeral s 0 ∧ a = ⟨none⟩) ∨ ∃ n : UInt8, 1 ≤ n.toNat ∧ n.toNat ≤ 100 ∧ IsUNumeral s n.toNat ∧ a = ⟨some n⟩) ∧
    (a.shw = s ↔ (PlainNat s 0 ∧ a = ⟨none⟩) ∨ ∃ n : UInt8, PlainNat s n.toNat ∧ a = ⟨some n⟩) := by
  constructor
  · unfold HO.Volume.parse
    cases hp : parseU8 s with
    | err e =>
      simp only [reduceCtorEq, false_iff]
      rintro (⟨h, -⟩ | ⟨n, -, -, h, -⟩)
      · have := (C01_u8_accepts s 0).2 h; rw [hp] at this; cases this
      · have := (C01_u8_accepts s n).2 h; rw [hp] at this; cases this
    | panic =>
      simp only [reduceCtorEq, false_iff]
      rintro (⟨h, -⟩ | ⟨n, -, -, h, -⟩)
      · have := (C01_u8_accepts s 0).2 h; rw [hp] at this; cases this
      · have := (C01_u8_accepts s n).2 h; rw [hp] at this; cases this
    | ok v =>
      have hv := (C01_u8_accepts s v).1 hp
      have uniq : ∀ n : UInt8, IsUNumeral s n.toNat → n = v := fun n h => by
        have := (C01_u8_accepts s n).2 h; rw [hp] at this; cases this; rfl
      dsimp only
      by_cases h0 : v = 0
      · subst h0
        simp only [if_true, HO.Volume.new, Res.ok.injEq]
        constructor
        · rintro rfl; exact .inl ⟨hv, rfl⟩
        · rintro (⟨-, rfl⟩ | ⟨n, h1, -, h, -⟩)
          · rfl
          · rw [uniq n h] at h1; exact absurd h1 (by decide)
      · simp only [h0, if_false, HO.Volume.new]
        by_cases h1 : v > 100
        · rw [if_pos h1]
          simp only [reduceCtorEq, false_iff]
          rintro (⟨h, -⟩ | ⟨n, -, h2, h, -⟩)
          · exact h0 (uniq 0 h).symm
          · rw [uniq n h] at h2
            have : 100 < v.toNat := h1
            omega
        · rw [if_neg h1]
          simp only [Res.ok.injEq]
          constructor
          · rintro rfl
            refine .inr ⟨v, ?_, ?_, hv, rfl⟩
            · have : v.toNat ≠ 0 := fun h => h0 (UInt8.toNat_inj.1 h)
              omega
            · have : ¬ 100 < v.toNat := h1
              omega
          · rintro (⟨h, rfl⟩ | ⟨n, -, -, h, rfl⟩)
            · exact absurd (uniq 0 h).symm h0
            · rw [uniq n h]
  · obtain ⟨v⟩ := a
    cases v with
    | none =>
      simp only [HO.Volume.shw, HO.Volume.mk.injEq, and_true, reduceCtorEq, and_false, exists_false, or_false]
      rw [plainNat_iff, eq_comm]
      rfl
    | some n =>
      simp only [HO.Volume.shw, HO.Volume.mk.injEq, reduceCtorEq, and_false, false_or, Option.some.injEq]
      rw [eq_comm, u8ToStr, ← plainNat_iff]
      exact ⟨fun h => ⟨n, h, rfl⟩, by rintro ⟨m, h, rfl⟩; exact h⟩

example : HO.Volume.parse c!"0" = .ok ⟨none⟩ ∧ HO.Volume.parse c!"100" = .ok ⟨some 100⟩ ∧ HO.Volume.parse c!"101" = .err .tooHigh := by decide

/-- C80: the hit sounds are read from a number up to 255, whose four lowest bits are normal, whistle, finish and clap, and
written as the sum of their numbers. -/
theorem C80_hit_sound (s : Str) (a : HO.HitSound) :
    (HO.HitSound.parse s = .ok a ↔ ∃ n : Nat, n ≤ 255 ∧ IsUNumeral s n ∧
      (a.normal = true ↔ n % 2 = 1) ∧ (a.whistle = true ↔ n / 2 % 2 = 1) ∧ (a.finish = true ↔ n / 4 % 2 = 1) ∧
      (a.clap = true ↔ n / 8 % 2 = 1)) ∧
    (a.shw = s ↔ PlainNat s (hitSoundNo a)) := by
  constructor
  · unfold HO.HitSound.parse
    rw [Res.bind_eq_ok]
    simp only [C01_u8_accepts, Res.ok.injEq]
    have key : ∀ n : UInt8, HO.HitSound.ofU8 n = a ↔ (a.normal = true ↔ n.toNat % 2 = 1) ∧
        (a.whistle = true ↔ n.toNat / 2 % 2 = 1) ∧ (a.finish = true ↔ n.toNat / 4 % 2 = 1) ∧ (a.clap = true ↔ n.toNat / 8 % 2 = 1) := by
      intro n
      obtain ⟨x, y, z, w⟩ := a
      simp only [HO.HitSound.ofU8, HO.HitSound.mk.injEq, Nat.testBit_eq_decide_div_mod_eq, Nat.pow_zero, Nat.div_one, Nat.pow_one,
        show (2 : Nat) ^ 2 = 4 from rfl, show (2 : Nat) ^ 3 = 8 from rfl]
      constructor
      · rintro ⟨rfl, rfl, rfl, rfl⟩; simp
      · rintro ⟨h1, h2, h3, h4⟩
        refine ⟨?_, ?_, ?_, ?_⟩ <;> rw [Bool.eq_iff_iff, decide_eq_true_iff]
        · exact h1.symm
        · exact h2.symm
        · exact h3.symm
        · exact h4.symm
    constructor
    · rintro ⟨n, hs, h⟩
      have := n.toNat_lt
      exact ⟨n.toNat, by omega, hs, (key n).1 h⟩
    · rintro ⟨n, hn, hs, h⟩
      have e : (UInt8.ofNat n).toNat = n := by rw [UInt8.toNat_ofNat']; omega
      refine ⟨UInt8.ofNat n, by rw [e]; exact hs, (key _).2 (by rw [e]; exact h)⟩
  · rw [HO.HitSound.shw, eq_comm, ← plainNat_iff]
    have : a.mask = hitSoundNo a := by
      obtain ⟨x, y, z, w⟩ := a
      cases x <;> cases y <;> cases z <;> cases w <;> rfl
    rw [this]

example : HO.HitSound.parse c!"10" = .ok ⟨false, true, false, true⟩ ∧ (⟨false, true, false, true⟩ : HO.HitSound).shw = c!"10" ∧
    HO.HitSound.parse c!"18" = .ok ⟨false, true, false, false⟩ := by decide

/-- C80: the pairs of a slider, edge sets and curve points, are the texts before and after a colon. -/
theorem C80_pairs {D : Type} [DecLib D] (s : Str) (e : HO.EdgeSet) (p : HO.CurvePoint D) :
    (HO.EdgeSet.parse s = .ok e ↔
      ∃ x y, s = x ++ ':' :: y ∧ HO.SampleSet.parse x = .ok e.normalSet ∧ HO.SampleSet.parse y = .ok e.additionSet) ∧
    e.shw = e.normalSet.shw ++ ':' :: e.additionSet.shw ∧
    (HO.CurvePoint.parse s = .ok p ↔
      ∃ x y, s = x ++ ':' :: y ∧ ':' ∉ x ∧ p.pos.x = Decimal.ofStr x ∧ p.pos.y = Decimal.ofStr y) ∧
    p.shw = p.pos.x.toStr ++ ':' :: p.pos.y.toStr := by
  refine ⟨HO.EdgeSet.parse_iff, ?_, ?_, ?_⟩
  · simp [HO.EdgeSet.shw]
  · rw [HO.CurvePoint.parse_iff]
    constructor
    · rintro ⟨x, y, h, hx, h1, h2⟩
      exact ⟨x, y, h, fun hc => by have := hx _ hc; simp at this, h1, h2⟩
    · rintro ⟨x, y, h, hx, h1, h2⟩
      exact ⟨x, y, h, fun c hc => by simp; rintro rfl; exact hx hc, h1, h2⟩
  · simp [HO.CurvePoint.shw]

example : HO.EdgeSet.parse c!"1:2" = .ok ⟨.normal, .soft⟩ := by decide

/-- C80: the number written for the type of a hit object. -/
theorem C80_object_type {D : Type} (o : HitObject D) (h : o.comboSkip.val.toNat ≤ 7) : o.typeByte.toNat = objectTypeNo o := by
  obtain ⟨pos, time, params, nc, ⟨sk⟩, hs, sa⟩ := o
  have e : sk = UInt8.ofNat sk.toNat := (UInt8.ofNat_toNat).symm
  have hk : sk.toNat = 0 ∨ sk.toNat = 1 ∨ sk.toNat = 2 ∨ sk.toNat = 3 ∨ sk.toNat = 4 ∨ sk.toNat = 5 ∨ sk.toNat = 6 ∨
      sk.toNat = 7 := by
    have : sk.toNat ≤ 7 := h
    omega
  rcases hk with h | h | h | h | h | h | h | h <;> (rw [h] at e; subst e; cases params <;> cases nc <;> (simp only [HitObject.typeByte, objectTypeNo]; decide))

example : objectTypeNo (D := Dec96) ⟨⟨.right c!"a", .right c!"b"⟩, .right c!"c", .hold (.right c!"d"), true, ⟨5⟩, ⟨false, false, false, false⟩, none⟩ = 212 := rfl

/-- C80: the numbers written for the layers and origins of the old sprites and samples and for the layers of audio samples are
their places in the tables. -/
theorem C80_event_numbers (s : Str) (l : Ev.LayerLegacy) (o : Ev.OriginLegacy) (a : Ev.AudioLayer) :
    (l.shw = s ↔ ∃ n : Nat, PlainNat s n ∧ legacyLayers[n]? = some l) ∧
    (o.shw = s ↔ ∃ n : Nat, PlainNat s n ∧ legacyOrigins[n]? = some o) ∧
    (usizeToStr a.code = s ↔ ∃ n : Nat, PlainNat s n ∧ audioLayers[n]? = some a) := by
  have key : ∀ {α : Type} (table : List α) (f : α → UInt64) (a : α), (∀ i : Fin table.length, ((f table[i]).toNat : Int) = (i : Nat)) →
      a ∈ table → (usizeToStr (f a) = s ↔ ∃ n : Nat, PlainNat s n ∧ table[n]? = some a) := by
    intro α table f a h0 ha
    rw [eq_comm, usizeToStr, ← plainNat_iff]
    have h := numberOf_iff (f := fun x => ((f x).toNat : Int)) h0 ha
    constructor
    · intro hp
      obtain ⟨i, hi, e⟩ := (h _).2 rfl
      exact ⟨i, by rw [← Int.ofNat_inj.1 e]; exact hp, hi⟩
    · rintro ⟨n, hp, hn⟩
      have := (h n).1 ⟨n, hn, rfl⟩
      rw [Int.ofNat_inj.1 this]; exact hp
  exact ⟨key legacyLayers _ l (by decide) (by cases l <;> decide), key legacyOrigins _ o (by decide) (by cases o <;> decide),
    key audioLayers _ a (by decide) (by cases a <;> decide)⟩

example : Ev.LayerLegacy.foreground.shw = c!"3" ∧ legacyLayers[3]? = some .foreground := by decide

end Osu
