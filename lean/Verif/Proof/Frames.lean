/-
The file names of the frames of an animation.
-/
import Verif.Spec.Frames
import Verif.Model.Sprites
import Verif.Proof.Pieces
import Verif.Proof.Num

namespace Osu
namespace SB

theorem lastDot_none {s : Str} : lastDot s = none ↔ lacks '.' s = true := by
  induction s with
  | nil => simp [lastDot, lacks]
  | cons c s ih =>
    unfold lastDot
    cases h : lastDot s with
    | some i =>
      have : ¬ lacks '.' s = true := fun h' => by rw [ih.2 h'] at h; cases h
      simp only [lacks, List.all_cons, Bool.and_eq_true] at this ⊢
      simp [this]
    | none =>
      have := ih.1 h
      unfold lacks at this ⊢
      by_cases hc : c = '.' <;> simp [hc, this]

theorem lastDot_some {s : Str} {i : Nat} : lastDot s = some i ↔ ∃ a b, s = a ++ '.' :: b ∧ a.length = i ∧ lacks '.' b = true := by
  induction s generalizing i with
  | nil => simp [lastDot]
  | cons c s ih =>
    unfold lastDot
    cases h : lastDot s with
    | some j =>
      simp only [Option.some.injEq]
      obtain ⟨a, b, rfl, hl, hb⟩ := ih.1 h
      constructor
      · rintro rfl; exact ⟨c :: a, b, rfl, by simp [hl], hb⟩
      · rintro ⟨a', b', e, hl', hb'⟩
        cases a' with
        | nil =>
          simp only [List.nil_append, List.cons.injEq] at e
          obtain ⟨_, rfl⟩ := e
          simp [lacks] at hb'
        | cons d a' =>
          simp only [List.cons_append, List.cons.injEq] at e
          have := (ih (i := a'.length)).2 ⟨a', b', e.2, rfl, hb'⟩
          rw [h] at this; cases this
          simp at hl'; omega
    | none =>
      have hn := lastDot_none.1 h
      simp only []
      constructor
      · intro h'
        split at h'
        · rename_i hc; cases h'; subst hc; exact ⟨[], s, rfl, rfl, hn⟩
        · cases h'
      · rintro ⟨a, b, e, hl, hb⟩
        cases a with
        | nil => simp only [List.nil_append, List.cons.injEq] at e; rw [if_pos e.1]; simp at hl; rw [← hl]
        | cons d a =>
          simp only [List.cons_append, List.cons.injEq] at e
          rw [e.2] at hn; simp [lacks] at hn

theorem natToStr_inj {m n : Nat} (h : natToStr m = natToStr n) : m = n := by
  have h1 := parseDigits_natToStr .posOverflow (max m n) m (by omega)
  have h2 := parseDigits_natToStr .posOverflow (max m n) n (by omega)
  rw [h, h2] at h1
  exact (Res.ok.inj h1).symm

/-- The names. -/
theorem frames_slot {path name : Str} {n : Nat} (hp : pathFileName path = some name) (hd : name ≠ c!"..") :
    ∃ a b, FrameSlot name a b ∧ frameFileNames path n = some ((List.range n).map fun i => a ++ natToStr i ++ b) := by
  unfold frameFileNames extension
  rw [hp]
  simp only [if_neg hd]
  cases hl : lastDot name with
  | none => exact ⟨name, [], .plain (lastDot_none.1 hl), by simp⟩
  | some i =>
    obtain ⟨a, b, rfl, hi, hb⟩ := lastDot_some.1 hl
    cases i with
    | zero =>
      have : a = [] := List.length_eq_zero_iff.1 hi
      subst this
      exact ⟨_, [], .hidden hb, by simp⟩
    | succ i =>
      have ha : a ≠ [] := by rintro rfl; simp at hi
      refine ⟨a, '.' :: b, .ext ha hb, ?_⟩
      have : List.drop (i + 1 + 1) (a ++ '.' :: b) = b := by
        rw [← hi, List.drop_append]; simp
      simp only [this]
      rw [if_pos (show endsWith (a ++ '.' :: b) ('.' :: b) = true from List.isSuffixOf_iff_suffix.2 ⟨a, rfl⟩)]
      have : (a ++ '.' :: b).length - (b.length + 1) = a.length := by simp
      rw [this, List.take_left]

theorem slot_unique {name a b a' b' : Str} (h : FrameSlot name a b) (h' : FrameSlot name a' b') : a = a' ∧ b = b' := by
  have key : ∀ {s t s' t' : Str}, s ++ '.' :: t = s' ++ '.' :: t' → lacks '.' t = true → lacks '.' t' = true → s = s' ∧ t = t' := by
    intro s t s' t' e h1 h2
    have l1 := lastDot_some.2 ⟨s, t, rfl, rfl, h1⟩
    have l2 := lastDot_some.2 ⟨s', t', e, rfl, h2⟩
    rw [l1] at l2
    have := List.append_inj e (Option.some.inj l2)
    exact ⟨this.1, by simpa using this.2⟩
  have hdot : ∀ {s t : Str}, ¬ lacks '.' (s ++ '.' :: t) = true := by intro s t h; simp [lacks] at h
  generalize hn : name = m at h'
  cases h with
  | ext hs he =>
    cases h' with
    | ext hs' he' => obtain ⟨rfl, rfl⟩ := key hn he he'; exact ⟨rfl, rfl⟩
    | plain h => rw [← hn] at h; exact absurd h hdot
    | hidden h =>
      have := key (s' := []) hn he h
      exact absurd this.1 hs
  | plain h =>
    subst hn
    cases h' with
    | ext hs' he' => exact absurd h hdot
    | plain _ => exact ⟨rfl, rfl⟩
    | hidden _ => exact ⟨rfl, rfl⟩
  | hidden h =>
    cases h' with
    | ext hs' he' =>
      have := key (s := []) hn h he'
      exact absurd this.1.symm hs'
    | plain h2 => subst hn; exact ⟨rfl, rfl⟩
    | hidden _ => cases hn; exact ⟨rfl, rfl⟩

/-! ### The name in a path -/

theorem pathTail_iff {t : Str} : PathTail t ↔ ∃ ys : List Str, (∀ y ∈ ys, y = [] ∨ y = c!".") ∧ t = preC '/' ys := by
  constructor
  · intro h
    induction h with
    | nil => exact ⟨[], by simp, rfl⟩
    | slash _ ih =>
      obtain ⟨ys, h1, rfl⟩ := ih
      exact ⟨[] :: ys, by intro y hy; rcases List.mem_cons.1 hy with rfl | hy; exact .inl rfl; exact h1 y hy, rfl⟩
    | dot _ ih =>
      obtain ⟨ys, h1, rfl⟩ := ih
      exact ⟨c!"." :: ys, by intro y hy; rcases List.mem_cons.1 hy with rfl | hy; exact .inr rfl; exact h1 y hy, rfl⟩
  · rintro ⟨ys, h1, rfl⟩
    induction ys with
    | nil => exact .nil
    | cons y ys ih =>
      have := ih fun z hz => h1 z (.tail _ hz)
      rcases h1 y (.head _) with rfl | rfl
      · exact .slash this
      · exact .dot this

theorem filter_last {α : Type} {f : α → Bool} {l : List α} {a : α} : (l.filter f).getLast? = some a ↔
    ∃ xs ys, l = xs ++ a :: ys ∧ f a = true ∧ ∀ y ∈ ys, f y = false := by
  constructor
  · intro h
    induction l with
    | nil => simp at h
    | cons x l ih =>
      by_cases hl : (l.filter f).getLast? = none
      · rw [List.getLast?_eq_none_iff, List.filter_eq_nil_iff] at hl
        rw [List.filter_cons] at h
        have hnil : l.filter f = [] := List.filter_eq_nil_iff.2 hl
        split at h
        · rename_i hx
          rw [hnil] at h; cases h
          exact ⟨[], l, rfl, hx, fun y hy => by simpa using hl y hy⟩
        · rw [hnil] at h; cases h
      · obtain ⟨b, hb⟩ := Option.ne_none_iff_exists'.1 hl
        have : (List.filter f (x :: l)).getLast? = some b := by
          rw [List.filter_cons]
          split
          · rw [List.getLast?_cons, hb]; rfl
          · exact hb
        rw [this] at h; cases h
        obtain ⟨xs, ys, rfl, h1, h2⟩ := ih hb
        exact ⟨x :: xs, ys, rfl, h1, h2⟩
  · rintro ⟨xs, ys, rfl, h1, h2⟩
    have : ys.filter f = [] := List.filter_eq_nil_iff.2 fun y hy => by simp [h2 y hy]
    simp [List.filter_append, List.filter_cons, h1, this]

theorem preC_append' (c : Char) (a b : List Str) : preC c (a ++ b) = preC c a ++ preC c b := by
  simp [preC]

theorem pathFileName_iff {path name : Str} : pathFileName path = some name ↔ NamedPath path name := by
  have h0 : pathFileName path = some name ↔ name ≠ c!".." ∧
      ((splitOnC '/' path).filter fun p => p ≠ [] ∧ p ≠ c!".").getLast? = some name := by
    unfold pathFileName
    cases ((splitOnC '/' path).filter fun p => p ≠ [] ∧ p ≠ c!".").getLast? with
    | none => simp
    | some p =>
      simp only []
      constructor
      · intro h
        split at h
        · cases h
        · cases h; exact ⟨by assumption, rfl⟩
      · rintro ⟨h1, h2⟩
        cases h2; rw [if_neg h1]
  rw [h0, filter_last]
  clear h0
  constructor
  · rintro ⟨hd, xs, ys, e, hn, hy⟩
    have hn : name ≠ [] ∧ name ≠ c!"." := by simpa using hn
    have ht : PathTail (preC '/' ys) := pathTail_iff.2 ⟨ys, fun y h => by
      have h := hy y h
      by_cases h1 : y = []
      · exact .inl h1
      · simp [h1] at h; exact .inr h, rfl⟩
    cases xs with
    | nil =>
      obtain ⟨rfl, hp, -⟩ := splitOnC_iff.1 e
      exact .mk (dir := []) (.inl rfl) (lacks_iff.2 hp) hn.1 hn.2 hd ht
    | cons x xs =>
      obtain ⟨rfl, -, hq⟩ := splitOnC_iff.1 e
      have := NamedPath.mk (dir := x ++ preC '/' xs ++ ['/']) (.inr ⟨_, rfl⟩) (lacks_iff.2 (hq name (by simp))) hn.1 hn.2 hd ht
      rw [show xs.append (name :: ys) = xs ++ name :: ys from rfl, preC_append']
      simpa [preC] using this
  · rintro ⟨hd, hn, h0, h1, h2, ht⟩
    rename_i dir tail
    refine ⟨h2, ?_⟩
    obtain ⟨ys, hy, rfl⟩ := pathTail_iff.1 ht
    have hys : ∀ q ∈ ys, NoC '/' q := by
      intro q hq
      rcases hy q hq with rfl | rfl
      · exact lacks_iff.1 rfl
      · exact lacks_iff.1 rfl
    have hyf : ∀ y ∈ ys, decide (y ≠ [] ∧ y ≠ c!".") = false := by
      intro y h
      rcases hy y h with rfl | rfl <;> rfl
    rcases hd with rfl | ⟨d, rfl⟩
    · exact ⟨[], ys, splitOnC_iff.2 ⟨rfl, lacks_iff.1 hn, hys⟩, by simp [h0, h1], hyf⟩
    · cases hs : splitOnC '/' d with
      | nil => exact absurd hs (splitOnC_ne_nil _ _)
      | cons p qs =>
        obtain ⟨rfl, hp, hq⟩ := splitOnC_iff.1 hs
        refine ⟨p :: qs, ys, splitOnC_iff.2 ⟨?_, hp, ?_⟩, by simp [h0, h1], hyf⟩
        · simp [preC]
        · intro q hm
          rcases List.mem_append.1 hm with hm | hm
          · exact hq q hm
          · rcases List.mem_cons.1 hm with rfl | hm
            · exact lacks_iff.1 hn
            · exact hys q hm

end SB
end Osu
