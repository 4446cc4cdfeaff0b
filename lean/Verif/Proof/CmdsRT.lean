/-
Command lines: reading what was printed, and what reading can produce.
-/
import Verif.Spec.Tree
import Verif.Proof.Tree
import Verif.Proof.CmdsGrammar
import Verif.Proof.Trigger
import Verif.Props.TimingPoints

namespace Osu
open Parser
namespace SB
variable {D : Type} [DecLib D]

/-! ### Easing -/

theorem Easing.ofInt_other {n : Int32} (h : ¬ (0 ≤ n.toInt ∧ n.toInt ≤ 34)) : Easing.ofInt n = .other n := by
  have h' : ∀ m : Int32, 0 ≤ m.toInt ∧ m.toInt ≤ 34 → n ≠ m := by
    rintro m hm rfl; exact h hm
  rw [Easing.ofInt, if_neg (h' 0 (by decide)), if_neg (h' 1 (by decide)), if_neg (h' 2 (by decide)),
    if_neg (h' 3 (by decide)), if_neg (h' 4 (by decide)), if_neg (h' 5 (by decide)),
    if_neg (h' 6 (by decide)), if_neg (h' 7 (by decide)), if_neg (h' 8 (by decide)),
    if_neg (h' 9 (by decide)), if_neg (h' 10 (by decide)), if_neg (h' 11 (by decide)),
    if_neg (h' 12 (by decide)), if_neg (h' 13 (by decide)), if_neg (h' 14 (by decide)),
    if_neg (h' 15 (by decide)), if_neg (h' 16 (by decide)), if_neg (h' 17 (by decide)),
    if_neg (h' 18 (by decide)), if_neg (h' 19 (by decide)), if_neg (h' 20 (by decide)),
    if_neg (h' 21 (by decide)), if_neg (h' 22 (by decide)), if_neg (h' 23 (by decide)),
    if_neg (h' 24 (by decide)), if_neg (h' 25 (by decide)), if_neg (h' 26 (by decide)),
    if_neg (h' 27 (by decide)), if_neg (h' 28 (by decide)), if_neg (h' 29 (by decide)),
    if_neg (h' 30 (by decide)), if_neg (h' 31 (by decide)), if_neg (h' 32 (by decide)),
    if_neg (h' 33 (by decide)), if_neg (h' 34 (by decide))]

theorem Easing.named_cases {n : Int32} (h : 0 ≤ n.toInt ∧ n.toInt ≤ 34) :
    n = 0 ∨ n = 1 ∨ n = 2 ∨ n = 3 ∨ n = 4 ∨ n = 5 ∨ n = 6 ∨ n = 7 ∨ n = 8 ∨ n = 9 ∨ n = 10 ∨ n = 11 ∨
      n = 12 ∨ n = 13 ∨ n = 14 ∨ n = 15 ∨ n = 16 ∨ n = 17 ∨ n = 18 ∨ n = 19 ∨ n = 20 ∨ n = 21 ∨ n = 22 ∨
      n = 23 ∨ n = 24 ∨ n = 25 ∨ n = 26 ∨ n = 27 ∨ n = 28 ∨ n = 29 ∨ n = 30 ∨ n = 31 ∨ n = 32 ∨ n = 33 ∨ n = 34 := by
  have e : ∀ m : Int32, ∀ k : Int, m.toInt = k → n.toInt = k → n = m := fun m k h h' => Int32.toInt_inj.1 (h'.trans h.symm)
  have hd : n.toInt = 0 ∨ n.toInt = 1 ∨ n.toInt = 2 ∨ n.toInt = 3 ∨ n.toInt = 4 ∨ n.toInt = 5 ∨ n.toInt = 6 ∨
      n.toInt = 7 ∨ n.toInt = 8 ∨ n.toInt = 9 ∨ n.toInt = 10 ∨ n.toInt = 11 ∨ n.toInt = 12 ∨ n.toInt = 13 ∨
      n.toInt = 14 ∨ n.toInt = 15 ∨ n.toInt = 16 ∨ n.toInt = 17 ∨ n.toInt = 18 ∨ n.toInt = 19 ∨ n.toInt = 20 ∨
      n.toInt = 21 ∨ n.toInt = 22 ∨ n.toInt = 23 ∨ n.toInt = 24 ∨ n.toInt = 25 ∨ n.toInt = 26 ∨ n.toInt = 27 ∨
      n.toInt = 28 ∨ n.toInt = 29 ∨ n.toInt = 30 ∨ n.toInt = 31 ∨ n.toInt = 32 ∨ n.toInt = 33 ∨ n.toInt = 34 := by omega
  rcases hd with h | h | h | h | h | h | h | h | h | h | h | h | h | h | h | h | h | h | h | h | h | h | h | h | h | h |
      h | h | h | h | h | h | h | h | h
  · exact .inl (e 0 0 rfl h)
  · exact .inr (.inl (e 1 1 rfl h))
  · exact .inr (.inr (.inl (e 2 2 rfl h)))
  · exact .inr (.inr (.inr (.inl (e 3 3 rfl h))))
  · exact .inr (.inr (.inr (.inr (.inl (e 4 4 rfl h)))))
  · exact .inr (.inr (.inr (.inr (.inr (.inl (e 5 5 rfl h))))))
  · exact .inr (.inr (.inr (.inr (.inr (.inr (.inl (e 6 6 rfl h)))))))
  · exact .inr (.inr (.inr (.inr (.inr (.inr (.inr (.inl (e 7 7 rfl h))))))))
  · exact .inr (.inr (.inr (.inr (.inr (.inr (.inr (.inr (.inl (e 8 8 rfl h)))))))))
  · exact .inr (.inr (.inr (.inr (.inr (.inr (.inr (.inr (.inr (.inl (e 9 9 rfl h))))))))))
  · exact .inr (.inr (.inr (.inr (.inr (.inr (.inr (.inr (.inr (.inr (.inl (e 10 10 rfl h)))))))))))
  · exact .inr (.inr (.inr (.inr (.inr (.inr (.inr (.inr (.inr (.inr (.inr (.inl (e 11 11 rfl h))))))))))))
  · exact .inr (.inr (.inr (.inr (.inr (.inr (.inr (.inr (.inr (.inr (.inr (.inr (.inl (e 12 12 rfl h)))))))))))))
  · exact .inr (.inr (.inr (.inr (.inr (.inr (.inr (.inr (.inr (.inr (.inr (.inr (.inr (.inl (e 13 13 rfl h))))))))))))))
  · exact .inr (.inr (.inr (.inr (.inr (.inr (.inr (.inr (.inr (.inr (.inr (.inr (.inr (.inr (.inl (e 14 14 rfl h)))))))))))))))
  · exact .inr (.inr (.inr (.inr (.inr (.inr (.inr (.inr (.inr (.inr (.inr (.inr (.inr (.inr (.inr (.inl (e 15 15 rfl h))))))))))))))))
  · exact .inr (.inr (.inr (.inr (.inr (.inr (.inr (.inr (.inr (.inr (.inr (.inr (.inr (.inr (.inr (.inr (.inl (e 16 16 rfl h)))))))))))))))))
  · exact .inr (.inr (.inr (.inr (.inr (.inr (.inr (.inr (.inr (.inr (.inr (.inr (.inr (.inr (.inr (.inr (.inr (.inl (e 17 17 rfl h))))))))))))))))))
  · exact .inr (.inr (.inr (.inr (.inr (.inr (.inr (.inr (.inr (.inr (.inr (.inr (.inr (.inr (.inr (.inr (.inr (.inr (.inl (e 18 18 rfl h)))))))))))))))))))
  · exact .inr (.inr (.inr (.inr (.inr (.inr (.inr (.inr (.inr (.inr (.inr (.inr (.inr (.inr (.inr (.inr (.inr (.inr (.inr (.inl (e 19 19 rfl h))))))))))))))))))))
  · exact .inr (.inr (.inr (.inr (.inr (.inr (.inr (.inr (.inr (.inr (.inr (.inr (.inr (.inr (.inr (.inr (.inr (.inr (.inr (.inr (.inl (e 20 20 rfl h)))))))))))))))))))))
  · exact .inr (.inr (.inr (.inr (.inr (.inr (.inr (.inr (.inr (.inr (.inr (.inr (.inr (.inr (.inr (.inr (.inr (.inr (.inr (.inr (.inr (.inl (e 21 21 rfl h))))))))))))))))))))))
  · exact .inr (.inr (.inr (.inr (.inr (.inr (.inr (.inr (.inr (.inr (.inr (.inr (.inr (.inr (.inr (.inr (.inr (.inr (.inr (.inr (.inr (.inr (.inl (e 22 22 rfl h)))))))))))))))))))))))
  · exact .inr (.inr (.inr (.inr (.inr (.inr (.inr (.inr (.inr (.inr (.inr (.inr (.inr (.inr (.inr (.inr (.inr (.inr (.inr (.inr (.inr (.inr (.inr (.inl (e 23 23 rfl h))))))))))))))))))))))))
  · exact .inr (.inr (.inr (.inr (.inr (.inr (.inr (.inr (.inr (.inr (.inr (.inr (.inr (.inr (.inr (.inr (.inr (.inr (.inr (.inr (.inr (.inr (.inr (.inr (.inl (e 24 24 rfl h)))))))))))))))))))))))))
  · exact .inr (.inr (.inr (.inr (.inr (.inr (.inr (.inr (.inr (.inr (.inr (.inr (.inr (.inr (.inr (.inr (.inr (.inr (.inr (.inr (.inr (.inr (.inr (.inr (.inr (.inl (e 25 25 rfl h))))))))))))))))))))))))))
  · exact .inr (.inr (.inr (.inr (.inr (.inr (.inr (.inr (.inr (.inr (.inr (.inr (.inr (.inr (.inr (.inr (.inr (.inr (.inr (.inr (.inr (.inr (.inr (.inr (.inr (.inr (.inl (e 26 26 rfl h)))))))))))))))))))))))))))
  · exact .inr (.inr (.inr (.inr (.inr (.inr (.inr (.inr (.inr (.inr (.inr (.inr (.inr (.inr (.inr (.inr (.inr (.inr (.inr (.inr (.inr (.inr (.inr (.inr (.inr (.inr (.inr (.inl (e 27 27 rfl h))))))))))))))))))))))))))))
  · exact .inr (.inr (.inr (.inr (.inr (.inr (.inr (.inr (.inr (.inr (.inr (.inr (.inr (.inr (.inr (.inr (.inr (.inr (.inr (.inr (.inr (.inr (.inr (.inr (.inr (.inr (.inr (.inr (.inl (e 28 28 rfl h)))))))))))))))))))))))))))))
  · exact .inr (.inr (.inr (.inr (.inr (.inr (.inr (.inr (.inr (.inr (.inr (.inr (.inr (.inr (.inr (.inr (.inr (.inr (.inr (.inr (.inr (.inr (.inr (.inr (.inr (.inr (.inr (.inr (.inr (.inl (e 29 29 rfl h))))))))))))))))))))))))))))))
  · exact .inr (.inr (.inr (.inr (.inr (.inr (.inr (.inr (.inr (.inr (.inr (.inr (.inr (.inr (.inr (.inr (.inr (.inr (.inr (.inr (.inr (.inr (.inr (.inr (.inr (.inr (.inr (.inr (.inr (.inr (.inl (e 30 30 rfl h)))))))))))))))))))))))))))))))
  · exact .inr (.inr (.inr (.inr (.inr (.inr (.inr (.inr (.inr (.inr (.inr (.inr (.inr (.inr (.inr (.inr (.inr (.inr (.inr (.inr (.inr (.inr (.inr (.inr (.inr (.inr (.inr (.inr (.inr (.inr (.inr (.inl (e 31 31 rfl h))))))))))))))))))))))))))))))))
  · exact .inr (.inr (.inr (.inr (.inr (.inr (.inr (.inr (.inr (.inr (.inr (.inr (.inr (.inr (.inr (.inr (.inr (.inr (.inr (.inr (.inr (.inr (.inr (.inr (.inr (.inr (.inr (.inr (.inr (.inr (.inr (.inr (.inl (e 32 32 rfl h)))))))))))))))))))))))))))))))))
  · exact .inr (.inr (.inr (.inr (.inr (.inr (.inr (.inr (.inr (.inr (.inr (.inr (.inr (.inr (.inr (.inr (.inr (.inr (.inr (.inr (.inr (.inr (.inr (.inr (.inr (.inr (.inr (.inr (.inr (.inr (.inr (.inr (.inr (.inl (e 33 33 rfl h))))))))))))))))))))))))))))))))))
  · exact .inr (.inr (.inr (.inr (.inr (.inr (.inr (.inr (.inr (.inr (.inr (.inr (.inr (.inr (.inr (.inr (.inr (.inr (.inr (.inr (.inr (.inr (.inr (.inr (.inr (.inr (.inr (.inr (.inr (.inr (.inr (.inr (.inr (.inr ((e 34 34 rfl h)))))))))))))))))))))))))))))))))))

theorem Easing.toInt_ofInt (n : Int32) : (Easing.ofInt n).toInt = n := by
  by_cases h : 0 ≤ n.toInt ∧ n.toInt ≤ 34
  · rcases Easing.named_cases h with rfl | rfl | rfl | rfl | rfl | rfl | rfl | rfl | rfl | rfl | rfl | rfl | rfl | rfl | rfl | rfl | rfl |
      rfl | rfl | rfl | rfl | rfl | rfl | rfl | rfl | rfl | rfl | rfl | rfl | rfl | rfl | rfl | rfl | rfl | rfl <;> rfl
  · rw [Easing.ofInt_other h]; rfl

theorem Easing.named_ofInt (n : Int32) : EasingNamed (Easing.ofInt n) := by
  by_cases h : 0 ≤ n.toInt ∧ n.toInt ≤ 34
  · rcases Easing.named_cases h with rfl | rfl | rfl | rfl | rfl | rfl | rfl | rfl | rfl | rfl | rfl | rfl | rfl | rfl | rfl | rfl | rfl |
      rfl | rfl | rfl | rfl | rfl | rfl | rfl | rfl | rfl | rfl | rfl | rfl | rfl | rfl | rfl | rfl | rfl | rfl <;> trivial
  · rw [Easing.ofInt_other h]; exact h

theorem Easing.ofInt_toInt {e : Easing} (h : EasingNamed e) : Easing.ofInt e.toInt = e := by
  cases e with
  | other n => exact Easing.ofInt_other h
  | _ => rfl

namespace Command

theorem noC_i32 (n : Int32) : NoC ',' (i32ToStr n) := noComma_of_field (i32_field n)

theorem noC_time (t : Option Int32) : NoC ',' (timeToStr t) := by
  cases t with
  | none => exact .nil
  | some n => exact noC_i32 n

theorem field_u8 (n : UInt8) : AllC fieldChar (u8ToStr n) := fun c hc => by
  have := TriggerType.alnum_dig (natToStr_digits _ c hc)
  simp only [Bool.and_eq_true] at this
  exact this.2

theorem field_u32 (n : UInt32) : AllC fieldChar (u32ToStr n) := fun c hc => by
  have := TriggerType.alnum_dig (natToStr_digits _ c hc)
  simp only [Bool.and_eq_true] at this
  exact this.2

theorem noC_param (p : Parameter) : NoC ',' p.shw := by cases p <;> exact NoC_hdr (by decide)

theorem param_parse (p : Parameter) : Parameter.parse p.shw = .ok p := by cases p <;> rfl

theorem noC_dec {cr : Bool} {d : Decimal D} (h : FieldDecC cr d) : NoC ',' d.toStr :=
  noComma_of_fieldC (h.chars fun _ => fieldC_dec)

theorem dec_read {cr : Bool} {d : Decimal D} (h : FieldDecC cr d) : Decimal.ofStr d.toStr = d := Decimal.ofStr_toStr h.wf

theorem times_print {st et : Option Int32} (h : TimesWritable st et) : TimesRead (timeToStr st) (timeToStr et) st et := by
  cases st with
  | none => rw [h rfl]; exact .none
  | some t =>
    cases et with
    | none => exact .start (parseI32_i32ToStr t) (by intro c hc; cases hc)
    | some e => exact .both (parseI32_i32ToStr t) (parseI32_i32ToStr e)

theorem continuing_preC {α : Type} (f : α → Str) (l : List α) : continuingToStr f l = preC ',' (l.map f) := by
  cases l with
  | nil => rfl
  | cons a l => rw [List.map_cons, preC_cons_join]; rfl

/-! ### Two by two, three by three -/

theorem dropLast_cons_mem {α : Type} {a b : α} {l : List α} : (a :: b :: l).dropLast = a :: (b :: l).dropLast := rfl

theorem twoByTwo_pieces {cr : Bool} : ∀ {l : List (Decimal D × Option (Decimal D))}, PairsComplete l →
    (∀ p ∈ l, FieldDecC cr p.1 ∧ ∀ d, p.2 = some d → FieldDecC cr d) →
    twoByTwo ((ContinuingFields.pieces Decimal.toStr l).map Decimal.ofStr) = l ∧
    ∀ q ∈ ContinuingFields.pieces Decimal.toStr l, AllC (fieldC cr) q
  | [], _, _ => ⟨rfl, by simp [ContinuingFields.pieces]⟩
  | [(a, none)], _, h => by
    have ha := (h (a, none) (by simp)).1
    simp only [ContinuingFields.pieces, List.map_cons, List.map_nil, twoByTwo, dec_read ha, true_and]
    intro q hq; rw [List.mem_singleton.1 hq]; exact ha.chars fun _ => fieldC_dec
  | (a, none) :: p :: l, hc, _ => absurd rfl (hc (a, none) (by rw [dropLast_cons_mem]; simp))
  | (a, some b) :: l, hc, h => by
    have hc' : PairsComplete l := by
      intro p hp
      cases l with
      | nil => cases hp
      | cons x l => exact hc p (by rw [dropLast_cons_mem]; simp [hp])
    obtain ⟨h1, h2⟩ := twoByTwo_pieces hc' fun p hp => h p (by simp [hp])
    have ha := (h (a, some b) (by simp)).1
    have hb := (h (a, some b) (by simp)).2 b rfl
    refine ⟨?_, ?_⟩
    · simp only [ContinuingFields.pieces, List.map_cons, twoByTwo, dec_read ha, dec_read hb, h1]
    · intro q hq
      simp only [ContinuingFields.pieces, List.mem_cons] at hq
      rcases hq with rfl | rfl | hq
      · exact ha.chars fun _ => fieldC_dec
      · exact hb.chars fun _ => fieldC_dec
      · exact h2 q hq

theorem twoByTwo_complete {α : Type} : ∀ l : List α, PairsComplete (twoByTwo l)
  | [] => by intro p hp; cases hp
  | [a] => by intro p hp; cases hp
  | a :: b :: l => by
    have ih := twoByTwo_complete l
    intro p hp
    rw [twoByTwo] at hp
    cases hl : twoByTwo l with
    | nil => rw [hl] at hp; cases hp
    | cons x xs =>
      rw [hl, dropLast_cons_mem] at hp
      rcases List.mem_cons.1 hp with rfl | hp
      · simp
      · exact ih p (by rw [hl]; exact hp)

theorem twoByTwo_mem {α : Type} : ∀ {l : List α} {p : α × Option α}, p ∈ twoByTwo l → p.1 ∈ l ∧ ∀ b, p.2 = some b → b ∈ l
  | [], p, h => by cases h
  | [a], p, h => by
    rw [twoByTwo, List.mem_singleton] at h
    subst h
    simp
  | a :: b :: l, p, h => by
    rw [twoByTwo] at h
    rcases List.mem_cons.1 h with rfl | h
    · simp
    · obtain ⟨h1, h2⟩ := twoByTwo_mem h
      exact ⟨by simp [h1], fun b hb => by simp [h2 b hb]⟩

theorem threeByThree_complete {α : Type} : ∀ l : List α, TriplesComplete (threeByThree l)
  | [] => ⟨by (intro p hp; cases hp), by (intro p hp; cases hp)⟩
  | [a] => ⟨by (intro p hp; cases hp), by (intro p hp; simp [threeByThree] at hp; subst hp; simp)⟩
  | [a, b] => ⟨by (intro p hp; cases hp), by (intro p hp; simp [threeByThree] at hp; subst hp; simp)⟩
  | a :: b :: c :: l => by
    obtain ⟨ih1, ih2⟩ := threeByThree_complete l
    constructor
    · intro p hp
      rw [threeByThree] at hp
      cases hl : threeByThree l with
      | nil => rw [hl] at hp; cases hp
      | cons x xs =>
        rw [hl, dropLast_cons_mem] at hp
        rcases List.mem_cons.1 hp with rfl | hp
        · simp
        · exact ih1 p (by rw [hl]; exact hp)
    · intro p hp
      rw [threeByThree] at hp
      rcases List.mem_cons.1 hp with rfl | hp
      · simp
      · exact ih2 p hp

theorem threeByThree_pieces : ∀ {l : List (UInt8 × Option UInt8 × Option UInt8)}, TriplesComplete l →
    ∃ ns : List UInt8, (Colours.pieces l).map parseU8 = ns.map .ok ∧ threeByThree ns = l ∧
      ∀ q ∈ Colours.pieces l, AllC fieldChar q
  | [], _ => ⟨[], rfl, rfl, by simp [Colours.pieces]⟩
  | (a, none, some b) :: l, hc => by
    have := hc.2 (a, none, some b) (by simp) rfl; cases this
  | [(a, none, none)], _ => ⟨[a], by simp [Colours.pieces, parseU8_u8ToStr], rfl, by
      intro q hq; simp [Colours.pieces] at hq; subst hq; exact field_u8 _⟩
  | [(a, some b, none)], _ => ⟨[a, b], by simp [Colours.pieces, parseU8_u8ToStr], rfl, by
      intro q hq; simp [Colours.pieces] at hq; rcases hq with rfl | rfl <;> exact field_u8 _⟩
  | (a, none, none) :: p :: l, hc => absurd rfl (hc.1 (a, none, none) (by rw [dropLast_cons_mem]; simp)).1
  | (a, some b, none) :: p :: l, hc => absurd rfl (hc.1 (a, some b, none) (by rw [dropLast_cons_mem]; simp)).2
  | (a, some b, some c) :: l, hc => by
    have hc' : TriplesComplete l := by
      refine ⟨?_, fun p hp => hc.2 p (by simp [hp])⟩
      intro p hp
      cases l with
      | nil => cases hp
      | cons x l => exact hc.1 p (by rw [dropLast_cons_mem]; simp [hp])
    obtain ⟨ns, h1, h2, h3⟩ := threeByThree_pieces hc'
    refine ⟨a :: b :: c :: ns, ?_, ?_, ?_⟩
    · simp [Colours.pieces, parseU8_u8ToStr, h1]
    · rw [threeByThree, h2]
    · intro q hq
      simp [Colours.pieces] at hq
      rcases hq with rfl | rfl | rfl | hq
      · exact field_u8 _
      · exact field_u8 _
      · exact field_u8 _
      · exact h3 q hq

/-! ### Printing and reading -/

theorem field_time (t : Option Int32) : AllC fieldChar (timeToStr t) := by
  cases t with
  | none => exact .nil
  | some n => exact i32_field n

theorem field_param (p : Parameter) : AllC fieldChar p.shw := by cases p <;> decide

theorem field_dec {cr : Bool} {d : Decimal D} (h : FieldDecC cr d) : AllC (fieldC cr) d.toStr := h.chars fun _ => fieldC_dec

/-- A printed command is its comma separated pieces. -/
theorem print_fields [UniLib] {cr : Bool} {c : Command D} (hw : CmdWritableC cr c) :
    ∃ p qs, c.shw = p ++ preC ',' qs ∧ AllC (fieldC cr) p ∧ (∀ q ∈ qs, AllC (fieldC cr) q) ∧ CmdReads (p :: qs) c.bare ∧
      HeadNot isIndent p ∧ p ≠ [] := by
  have hdr : ∀ {p : Str}, p.all (fieldC cr) = true → p.head?.any isIndent = false → p ≠ [] →
      AllC (fieldC cr) p ∧ HeadNot isIndent p ∧ p ≠ [] := by
    intro p h1 h2 h3
    refine ⟨List.all_eq_true.1 h1, ?_, h3⟩
    intro c r hp
    subst hp
    simpa using h2
  have ease : ∀ {e : Easing} {st et : Option Int32} {qs : List Str}, EasingNamed e → (∀ q ∈ qs, AllC (fieldC cr) q) →
      ∀ q ∈ e.shw :: timeToStr st :: timeToStr et :: qs, AllC (fieldC cr) q := by
    intro e st et qs _ h q hq
    simp only [List.mem_cons] at hq
    rcases hq with rfl | rfl | rfl | hq
    · exact wide_field (i32_field _)
    · exact wide_field (field_time _)
    · exact wide_field (field_time _)
    · exact h q hq
  have one : ∀ {x : Decimal D} {xs : List (Decimal D)}, FieldDecC cr x → (∀ y ∈ xs, FieldDecC cr y) →
      (∀ q ∈ x.toStr :: xs.map Decimal.toStr, AllC (fieldC cr) q) ∧ (xs.map Decimal.toStr).map Decimal.ofStr = xs := by
    intro x xs hx hxs
    constructor
    · intro q hq
      rcases List.mem_cons.1 hq with rfl | hq
      · exact field_dec hx
      · obtain ⟨y, hy, rfl⟩ := List.mem_map.1 hq
        exact field_dec (hxs y hy)
    · rw [List.map_map]
      conv => rhs; rw [← List.map_id xs]
      exact List.map_congr_left fun y hy => dec_read (hxs y hy)
  have pe : ∀ {e : Easing}, EasingNamed e → parseI32 e.shw = .ok e.toInt := fun _ => parseI32_i32ToStr _
  obtain ⟨st, pr⟩ := c
  cases pr with
  | fade e et x xs =>
    obtain ⟨he, ht, hx, hxs⟩ := hw
    obtain ⟨h1, h2⟩ := one hx hxs
    obtain ⟨d1, d2, d3⟩ := hdr (p := c!"F") (wide_all (by rfl)) (by rfl) (by decide)
    refine ⟨c!"F", e.shw :: timeToStr st :: timeToStr et :: x.toStr :: xs.map Decimal.toStr, ?_, d1, ease he h1, ?_, d2, d3⟩
    · simp [shw, toStrVars, header, body, variableReplace, continuing_preC, preC_cons]
    · have := CmdReads.fade (D := D) (x := x.toStr) (xs := xs.map Decimal.toStr) (pe he) (times_print ht)
      rwa [h2, dec_read hx, Easing.ofInt_toInt he] at this
  | moveX e et x xs =>
    obtain ⟨he, ht, hx, hxs⟩ := hw
    obtain ⟨h1, h2⟩ := one hx hxs
    obtain ⟨d1, d2, d3⟩ := hdr (p := c!"MX") (wide_all (by rfl)) (by rfl) (by decide)
    refine ⟨c!"MX", e.shw :: timeToStr st :: timeToStr et :: x.toStr :: xs.map Decimal.toStr, ?_, d1, ease he h1, ?_, d2, d3⟩
    · simp [shw, toStrVars, header, body, variableReplace, continuing_preC, preC_cons]
    · have := CmdReads.moveX (D := D) (x := x.toStr) (xs := xs.map Decimal.toStr) (pe he) (times_print ht)
      rwa [h2, dec_read hx, Easing.ofInt_toInt he] at this
  | moveY e et x xs =>
    obtain ⟨he, ht, hx, hxs⟩ := hw
    obtain ⟨h1, h2⟩ := one hx hxs
    obtain ⟨d1, d2, d3⟩ := hdr (p := c!"MY") (wide_all (by rfl)) (by rfl) (by decide)
    refine ⟨c!"MY", e.shw :: timeToStr st :: timeToStr et :: x.toStr :: xs.map Decimal.toStr, ?_, d1, ease he h1, ?_, d2, d3⟩
    · simp [shw, toStrVars, header, body, variableReplace, continuing_preC, preC_cons]
    · have := CmdReads.moveY (D := D) (x := x.toStr) (xs := xs.map Decimal.toStr) (pe he) (times_print ht)
      rwa [h2, dec_read hx, Easing.ofInt_toInt he] at this
  | scale e et x xs =>
    obtain ⟨he, ht, hx, hxs⟩ := hw
    obtain ⟨h1, h2⟩ := one hx hxs
    obtain ⟨d1, d2, d3⟩ := hdr (p := c!"S") (wide_all (by rfl)) (by rfl) (by decide)
    refine ⟨c!"S", e.shw :: timeToStr st :: timeToStr et :: x.toStr :: xs.map Decimal.toStr, ?_, d1, ease he h1, ?_, d2, d3⟩
    · simp [shw, toStrVars, header, body, variableReplace, continuing_preC, preC_cons]
    · have := CmdReads.scale (D := D) (x := x.toStr) (xs := xs.map Decimal.toStr) (pe he) (times_print ht)
      rwa [h2, dec_read hx, Easing.ofInt_toInt he] at this
  | rotate e et x xs =>
    obtain ⟨he, ht, hx, hxs⟩ := hw
    obtain ⟨h1, h2⟩ := one hx hxs
    obtain ⟨d1, d2, d3⟩ := hdr (p := c!"R") (wide_all (by rfl)) (by rfl) (by decide)
    refine ⟨c!"R", e.shw :: timeToStr st :: timeToStr et :: x.toStr :: xs.map Decimal.toStr, ?_, d1, ease he h1, ?_, d2, d3⟩
    · simp [shw, toStrVars, header, body, variableReplace, continuing_preC, preC_cons]
    · have := CmdReads.rotate (D := D) (x := x.toStr) (xs := xs.map Decimal.toStr) (pe he) (times_print ht)
      rwa [h2, dec_read hx, Easing.ofInt_toInt he] at this
  | move e et cf =>
    obtain ⟨he, ht, hx, hy, hc, hl⟩ := hw
    obtain ⟨⟨x, y⟩, l⟩ := cf
    simp only at hx hy hc hl
    obtain ⟨h1, h2⟩ := twoByTwo_pieces hc hl
    obtain ⟨d1, d2, d3⟩ := hdr (p := c!"M") (wide_all (by rfl)) (by rfl) (by decide)
    refine ⟨c!"M", e.shw :: timeToStr st :: timeToStr et :: x.toStr :: y.toStr :: ContinuingFields.pieces Decimal.toStr l,
      ?_, d1, ease he ?_, ?_, d2, d3⟩
    · simp [shw, toStrVars, header, body, variableReplace, preC_cons, ContinuingFields.shw, join_eq_preC]
    · intro q hq
      simp only [List.mem_cons] at hq
      rcases hq with rfl | rfl | hq
      · exact field_dec hx
      · exact field_dec hy
      · exact h2 q hq
    · have := CmdReads.move (D := D) (x := x.toStr) (y := y.toStr) (xs := ContinuingFields.pieces Decimal.toStr l) (pe he) (times_print ht)
      rwa [h1, dec_read hx, dec_read hy, Easing.ofInt_toInt he] at this
  | vectorScale e et cf =>
    obtain ⟨he, ht, hx, hy, hc, hl⟩ := hw
    obtain ⟨⟨x, y⟩, l⟩ := cf
    simp only at hx hy hc hl
    obtain ⟨h1, h2⟩ := twoByTwo_pieces hc hl
    obtain ⟨d1, d2, d3⟩ := hdr (p := c!"V") (wide_all (by rfl)) (by rfl) (by decide)
    refine ⟨c!"V", e.shw :: timeToStr st :: timeToStr et :: x.toStr :: y.toStr :: ContinuingFields.pieces Decimal.toStr l,
      ?_, d1, ease he ?_, ?_, d2, d3⟩
    · simp [shw, toStrVars, header, body, variableReplace, preC_cons, ContinuingFields.shw, join_eq_preC]
    · intro q hq
      simp only [List.mem_cons] at hq
      rcases hq with rfl | rfl | hq
      · exact field_dec hx
      · exact field_dec hy
      · exact h2 q hq
    · have := CmdReads.vectorScale (D := D) (x := x.toStr) (y := y.toStr) (xs := ContinuingFields.pieces Decimal.toStr l) (pe he) (times_print ht)
      rwa [h1, dec_read hx, dec_read hy, Easing.ofInt_toInt he] at this
  | colour e et cs =>
    obtain ⟨he, ht, hc⟩ := hw
    obtain ⟨⟨r, g, b⟩, l⟩ := cs
    simp only at hc
    obtain ⟨ns, h1, h2, h3⟩ := threeByThree_pieces hc
    obtain ⟨d1, d2, d3⟩ := hdr (p := c!"C") (wide_all (by rfl)) (by rfl) (by decide)
    refine ⟨c!"C", e.shw :: timeToStr st :: timeToStr et :: u8ToStr r :: u8ToStr g :: u8ToStr b :: Colours.pieces l,
      ?_, d1, ease he ?_, ?_, d2, d3⟩
    · simp [shw, toStrVars, header, body, variableReplace, preC_cons, Colours.shw, join_eq_preC]
    · intro q hq
      simp only [List.mem_cons] at hq
      rcases hq with rfl | rfl | rfl | hq
      · exact wide_field (field_u8 _)
      · exact wide_field (field_u8 _)
      · exact wide_field (field_u8 _)
      · exact wide_field (h3 q hq)
    · have := CmdReads.colour (D := D) (pe he) (times_print ht) (parseU8_u8ToStr r) (parseU8_u8ToStr g) (parseU8_u8ToStr b) h1
      rwa [h2, Easing.ofInt_toInt he] at this
  | parameter e et a l =>
    obtain ⟨he, ht⟩ := hw
    obtain ⟨d1, d2, d3⟩ := hdr (p := c!"P") (wide_all (by rfl)) (by rfl) (by decide)
    refine ⟨c!"P", e.shw :: timeToStr st :: timeToStr et :: a.shw :: l.map Parameter.shw,
      ?_, d1, ease he ?_, ?_, d2, d3⟩
    · simp [shw, toStrVars, header, body, variableReplace, continuing_preC, preC_cons]
    · intro q hq
      rcases List.mem_cons.1 hq with rfl | hq
      · exact wide_field (field_param _)
      · obtain ⟨y, hy, rfl⟩ := List.mem_map.1 hq
        exact wide_field (field_param y)
    · have := CmdReads.parameter (D := D) (pe he) (times_print ht) (param_parse a) (xs := l.map Parameter.shw) (l := l) (by
        rw [List.map_map]; exact List.map_congr_left fun y _ => param_parse y)
      rwa [Easing.ofInt_toInt he] at this
  | loop n cs =>
    obtain ⟨d1, d2, d3⟩ := hdr (p := c!"L") (wide_all (by rfl)) (by rfl) (by decide)
    refine ⟨c!"L", [timeToStr st, u32ToStr n], ?_, d1, ?_, ?_, d2, d3⟩
    · simp [shw, toStrVars, header, body, variableReplace, preC_cons, preC_nil]
    · intro q hq
      simp only [List.mem_cons, List.not_mem_nil, or_false] at hq
      rcases hq with rfl | rfl
      · exact wide_field (field_time _)
      · exact wide_field (field_u32 _)
    · refine CmdReads.loop ?_ (parseU32_u32ToStr n)
      cases st with
      | none => exact .none
      | some t => exact .some (parseI32_i32ToStr t)
  | trigger t et g cs =>
    have ht : TriggerWritable t := hw
    obtain ⟨d1, d2, d3⟩ := hdr (p := c!"T") (wide_all (by rfl)) (by rfl) (by decide)
    have hc : AllC (fieldC cr) t.shw := (TriggerType.shw_chars t).mono fun c h => by
      simp only [Bool.and_eq_true] at h; exact fieldC_of h.2
    have fin : ∀ {qs : List Str} {b : Str}, b = t.shw ++ preC ',' qs → (∀ q ∈ qs, AllC (fieldC cr) q) → TriggerTimes qs st et g →
        (mk st (.trigger t et g cs) : Command D).shw = c!"T" ++ [','] ++ b →
        ∃ p qs, (mk st (.trigger t et g cs) : Command D).shw = p ++ preC ',' qs ∧ AllC (fieldC cr) p ∧ (∀ q ∈ qs, AllC (fieldC cr) q) ∧
          CmdReads (p :: qs) (mk st (.trigger t et g cs) : Command D).bare ∧ HeadNot isIndent p ∧ p ≠ [] := by
      intro qs b hb hqs htt hs
      refine ⟨c!"T", t.shw :: qs, ?_, d1, ?_, CmdReads.trigger (TriggerType.parse_shw ht) htt, d2, d3⟩
      · rw [hs, hb]; simp [preC_cons]
      · intro q hq
        rcases List.mem_cons.1 hq with rfl | hq
        · exact hc
        · exact hqs q hq
    have n0 : AllC (fieldC cr) ([] : Str) := .nil
    cases st with
    | none =>
      cases et with
      | none =>
        cases g with
        | none => exact fin (qs := []) rfl (by simp) .none (by simp [shw, toStrVars, header, body, variableReplace, timeToStr, TriggerType.optStr, preC_nil])
        | some g =>
          exact fin (qs := [[], [], i32ToStr g]) rfl (by simp [wide_field (i32_field _), n0]) (.skip (.group (parseI32_i32ToStr g)))
            (by simp [shw, toStrVars, header, body, variableReplace, timeToStr, TriggerType.optStr, preC_cons, preC_nil])
      | some e =>
        cases g with
        | none =>
          exact fin (qs := [[], i32ToStr e]) rfl (by simp [wide_field (i32_field _), n0]) (.skip (.stop (parseI32_i32ToStr e)))
            (by simp [shw, toStrVars, header, body, variableReplace, timeToStr, TriggerType.optStr, preC_cons, preC_nil])
        | some g =>
          exact fin (qs := [[], i32ToStr e, i32ToStr g]) rfl (by simp [wide_field (i32_field _), n0])
            (.skip (.both (parseI32_i32ToStr e) (parseI32_i32ToStr g)))
            (by simp [shw, toStrVars, header, body, variableReplace, timeToStr, TriggerType.optStr, preC_cons, preC_nil])
    | some s =>
      cases et with
      | none =>
        cases g with
        | none =>
          exact fin (qs := [i32ToStr s]) rfl (by simp [wide_field (i32_field _)]) (.start (parseI32_i32ToStr s) .none)
            (by simp [shw, toStrVars, header, body, variableReplace, timeToStr, TriggerType.optStr, preC_cons, preC_nil])
        | some g =>
          exact fin (qs := [i32ToStr s, [], i32ToStr g]) rfl (by simp [wide_field (i32_field _), n0])
            (.start (parseI32_i32ToStr s) (.group (parseI32_i32ToStr g)))
            (by simp [shw, toStrVars, header, body, variableReplace, timeToStr, TriggerType.optStr, preC_cons, preC_nil])
      | some e =>
        cases g with
        | none =>
          exact fin (qs := [i32ToStr s, i32ToStr e]) rfl (by simp [wide_field (i32_field _)])
            (.start (parseI32_i32ToStr s) (.stop (parseI32_i32ToStr e)))
            (by simp [shw, toStrVars, header, body, variableReplace, timeToStr, TriggerType.optStr, preC_cons, preC_nil])
        | some g =>
          exact fin (qs := [i32ToStr s, i32ToStr e, i32ToStr g]) rfl (by simp [wide_field (i32_field _)])
            (.start (parseI32_i32ToStr s) (.both (parseI32_i32ToStr e) (parseI32_i32ToStr g)))
            (by simp [shw, toStrVars, header, body, variableReplace, timeToStr, TriggerType.optStr, preC_cons, preC_nil])

/-- A printed command is its comma separated pieces. -/
theorem print_reads [UniLib] {cr : Bool} {c : Command D} (hw : CmdWritableC cr c) :
    ∃ p qs, c.shw = p ++ preC ',' qs ∧ NoC ',' p ∧ (∀ q ∈ qs, NoC ',' q) ∧ CmdReads (p :: qs) c.bare ∧
      HeadNot isIndent p ∧ p ≠ [] := by
  obtain ⟨p, qs, h1, h2, h3, h4⟩ := print_fields hw
  exact ⟨p, qs, h1, noComma_of_fieldC h2, fun q hq => noComma_of_fieldC (h3 q hq), h4⟩

/-- An indented, printed command is read back. -/
theorem parse_shw [UniLib] {cr : Bool} {c : Command D} (hw : CmdWritableC cr c) {ind : Str} (hi : AllC isIndent ind) :
    Command.parse (ind ++ c.shw) = .ok c.bare := by
  obtain ⟨p, qs, h1, hp, hqs, hr, hh, hne⟩ := print_reads hw
  rw [command_reads]
  have : (ind ++ c.shw).dropWhile isIndent = c.shw := by
    refine dropWhile_app hi ?_
    rw [h1]
    cases p with
    | nil => exact absurd rfl hne
    | cons x p => exact .cons (hh x p rfl)
  rw [this, h1, (splitOnC_iff (s := p ++ preC ',' qs)).2 ⟨rfl, hp, hqs⟩]
  exact hr

theorem times_writable {a b : Str} {st et : Option Int32} (h : TimesRead a b st et) : TimesWritable st et := by
  cases h <;> simp [TimesWritable]

/-- Everything read can be written. -/
theorem reads_writable [UniLib] {cr : Bool} {ps : List Str} {c : Command D} (h : CmdReads ps c) (hps : ∀ p ∈ ps, AllC (fieldC cr) p) :
    CmdWritableC cr c ∧ c.bare = c := by
  have dec : ∀ {x : Str}, x ∈ ps → FieldDecC cr (Decimal.ofStr x : Decimal D) := fun hx => decWritable_ofStr (hps _ hx)
  have one : ∀ {xs : List Str}, (∀ x ∈ xs, x ∈ ps) → ∀ y ∈ xs.map Decimal.ofStr, FieldDecC cr (y : Decimal D) := by
    intro xs hx y hy
    obtain ⟨x, hm, rfl⟩ := List.mem_map.1 hy
    exact dec (hx x hm)
  have two : ∀ {xs : List Str}, (∀ x ∈ xs, x ∈ ps) → ∀ p ∈ twoByTwo (xs.map Decimal.ofStr),
      FieldDecC cr (p.1 : Decimal D) ∧ ∀ d, p.2 = some d → FieldDecC cr d := by
    intro xs hx p hp
    obtain ⟨h1, h2⟩ := twoByTwo_mem hp
    exact ⟨one hx _ h1, fun d hd => one hx d (h2 d hd)⟩
  cases h with
  | fade he ht => exact ⟨⟨Easing.named_ofInt _, times_writable ht, dec (by simp), one (by simp +contextual)⟩, rfl⟩
  | moveX he ht => exact ⟨⟨Easing.named_ofInt _, times_writable ht, dec (by simp), one (by simp +contextual)⟩, rfl⟩
  | moveY he ht => exact ⟨⟨Easing.named_ofInt _, times_writable ht, dec (by simp), one (by simp +contextual)⟩, rfl⟩
  | scale he ht => exact ⟨⟨Easing.named_ofInt _, times_writable ht, dec (by simp), one (by simp +contextual)⟩, rfl⟩
  | rotate he ht => exact ⟨⟨Easing.named_ofInt _, times_writable ht, dec (by simp), one (by simp +contextual)⟩, rfl⟩
  | move he ht => exact ⟨⟨Easing.named_ofInt _, times_writable ht, dec (by simp), dec (by simp), twoByTwo_complete _,
      two (by simp +contextual)⟩, rfl⟩
  | vectorScale he ht => exact ⟨⟨Easing.named_ofInt _, times_writable ht, dec (by simp), dec (by simp), twoByTwo_complete _,
      two (by simp +contextual)⟩, rfl⟩
  | colour he ht => exact ⟨⟨Easing.named_ofInt _, times_writable ht, threeByThree_complete _⟩, rfl⟩
  | parameter he ht => exact ⟨⟨Easing.named_ofInt _, times_writable ht⟩, rfl⟩
  | loop => exact ⟨trivial, rfl⟩
  | trigger hx => exact ⟨TriggerType.parse_writable hx, rfl⟩

theorem pieces_chars {f : Char → Bool} {s : Str} (h : AllC f s) : ∀ p ∈ splitOnC ',' s, AllC f p := by
  intro p hp c hc
  cases hs : splitOnC ',' s with
  | nil => rw [hs] at hp; cases hp
  | cons q qs =>
    obtain ⟨h1, _⟩ := splitOnC_iff.1 hs
    refine h c ?_
    rw [h1]
    rw [hs] at hp
    rcases List.mem_cons.1 hp with rfl | hp
    · exact List.mem_append_left _ hc
    · refine List.mem_append_right _ ?_
      have key : ∀ qs : List Str, p ∈ qs → c ∈ preC ',' qs := ?_
      · exact key qs hp
      intro qs hp
      induction qs with
      | nil => cases hp
      | cons q' qs ih =>
        rw [preC_cons]
        rcases List.mem_cons.1 hp with rfl | hp
        · simp [hc]
        · have := ih hp; simp [this]

theorem parse_writable [UniLib] {cr : Bool} {s : Str} {c : Command D} (hs : AllC (lastC cr) s) (h : Command.parse s = .ok c) :
    CmdWritableC cr c ∧ c.bare = c := by
  rw [command_reads] at h
  refine reads_writable h ?_
  intro p hp x hx
  have h1 : AllC (lastC cr) (s.dropWhile isIndent) := fun y hy => hs y (List.dropWhile_subset _ hy)
  have h2 := pieces_chars h1 p hp x hx
  have h3 := splitOnC_chars ',' _ p hp x hx
  exact fieldC_iff.2 ⟨by simpa using h3, h2⟩

end Command
end SB
end Osu
