/-
The calls made for a value are followed by those of the next one: both can be read back from the whole (`Reads`).
-/
import Verif.Spec.Hash
import Verif.Proof.Equality
import Verif.Proof.Sep
import Verif.Props.Paths

namespace Osu
open SB Ev

/-- Whatever follows, equal calls are those of values that are the same for `r`, and the other way round. -/
def Reads {α β C : Type} (f : α → List C) (r : α → β) : Prop := ∀ a b x y, f a ++ x = f b ++ y ↔ r a = r b ∧ x = y

section
variable {D α β : Type}

theorem Reads.iff {C : Type} {f : α → List C} {r : α → β} (h : Reads f r) (a b : α) : f a = f b ↔ r a = r b := by
  simpa using h a b [] []

theorem i32Feed_reads : Reads (i32Feed (D := D)) id := fun a b x y => by simp [i32Feed, Int32.toInt_inj]
theorem u8Feed_reads : Reads (u8Feed (D := D)) id := fun a b x y => by simp [u8Feed, UInt8.toNat_inj]
theorem u32Feed_reads : Reads (u32Feed (D := D)) id := fun a b x y => by simp [u32Feed, UInt32.toNat_inj]
theorem usizeFeed_reads : Reads (usizeFeed (D := D)) id := fun a b x y => by simp [usizeFeed, UInt64.toNat_inj]
theorem boolFeed_reads : Reads (boolFeed (D := D)) id := fun a b x y => by cases a <;> cases b <;> simp [boolFeed]
theorem textFeed_reads : Reads (textFeed (D := D)) id := fun a b x y => by simp [textFeed]
theorem i32sFeed_reads : Reads (i32sFeed (D := D)) id := fun a b x y => by
  simp only [i32sFeed, List.cons_append, List.nil_append, List.cons.injEq, HCall.length.injEq, HCall.ints.injEq, id]
  exact ⟨fun h => h.2, fun h => ⟨by rw [h.1], h⟩⟩

theorem optFeed_reads {f : α → List (HCall D)} {r : α → β} (h : Reads f r) : Reads (optFeed f) (Option.map r) := fun a b x y => by
  cases a <;> cases b <;> simp [optFeed, h _ _ _ _]

theorem items_reads {f : α → List (HCall D)} {r : α → β} (h : Reads f r) : ∀ (l m : List α) (x y : List (HCall D)), l.length = m.length →
    (l.flatMap f ++ x = m.flatMap f ++ y ↔ l.map r = m.map r ∧ x = y)
  | [], [], x, y, _ => by simp
  | a :: l, b :: m, x, y, hl => by
    have := items_reads h l m x y (by simpa using hl)
    simp [h _ _ _ _, this, and_assoc]

theorem listFeed_reads {f : α → List (HCall D)} {r : α → β} (h : Reads f r) : Reads (listFeed f) (List.map r) := fun l m x y => by
  simp only [listFeed, List.cons_append, List.cons.injEq, HCall.length.injEq]
  constructor
  · intro ⟨h1, h2⟩
    exact (items_reads h l m x y h1).1 h2
  · intro ⟨h1, h2⟩
    have hl : l.length = m.length := by simpa using congrArg List.length h1
    exact ⟨hl, (items_reads h l m x y hl).2 ⟨h1, h2⟩⟩

theorem optFeed_id {f : α → List (HCall D)} (h : Reads f id) : Reads (optFeed f) id := by
  simpa [Option.map_id] using optFeed_reads h

theorem listFeed_id {f : α → List (HCall D)} (h : Reads f id) : Reads (listFeed f) id := by
  simpa [List.map_id] using listFeed_reads h

/-! Paths -/

def wholes (l : List Str) : List Str := l.filter fun x => x ≠ [] ∧ x ≠ c!"."

theorem skipHere_split (r : Str) : ∃ h t, splitOnC '/' r = h :: t ∧ splitOnC '/' (skipHere r) = (if h = c!"." then [] else h) :: t := by
  match hs : splitOnC '/' r with
  | [] => exact absurd hs (splitOnC_ne_nil _ _)
  | h :: t =>
    refine ⟨h, t, rfl, ?_⟩
    unfold skipHere
    split
    · simp [splitOnC] at hs
      simp [← hs.1, ← hs.2, splitOnC]
    · rename_i r
      simp [splitOnC] at hs
      simp [← hs.1, ← hs.2, splitOnC]
    · rename_i h1 h2
      rw [hs, if_neg]
      rintro rfl
      have hj := join_splitOnC '/' r
      rw [hs] at hj
      cases t with
      | nil => exact h1 (by simpa [join] using hj.symm)
      | cons q t =>
        rw [join_cons_cons] at hj
        exact h2 (join ['/'] (q :: t)) (by simpa using hj.symm)

theorem pathChunks_split (n : Nat) : ∀ (s cur : Str), s.length ≤ n → ∃ h t, splitOnC '/' s = h :: t ∧
    pathChunks cur s = (if cur ++ h = [] then [] else [cur ++ h]) ++ wholes t := by
  induction n with
  | zero =>
    intro s cur hn
    cases s with
    | nil => exact ⟨[], [], by simp [splitOnC], by simp [pathChunks, wholes]⟩
    | cons c r => simp at hn
  | succ n ih =>
    intro s cur hn
    cases s with
    | nil => exact ⟨[], [], by simp [splitOnC], by simp [pathChunks, wholes]⟩
    | cons c r =>
      by_cases hc : c = '/'
      · subst hc
        obtain ⟨h, t, h1, h2⟩ := skipHere_split r
        obtain ⟨h', t', h3, h4⟩ := ih (skipHere r) [] (by have := skipHere_le r; simp at hn; omega)
        rw [h2, List.cons.injEq] at h3
        refine ⟨[], h :: t, by simp [splitOnC, h1], ?_⟩
        rw [pathChunks, if_pos rfl, h4, ← h3.1, ← h3.2]
        by_cases hh : h = c!"."
        · simp [hh, wholes]
        · by_cases he : h = []
          · simp [he, wholes]
          · simp [hh, he, wholes]
      · obtain ⟨h, t, h1, h2⟩ := ih r (cur ++ [c]) (by simp at hn; omega)
        exact ⟨c :: h, t, by simp [splitOnC, hc, h1], by rw [pathChunks, if_neg hc, h2]; simp⟩

/-- The parts of a path that are hashed: all but the root. -/
theorem pathChunks_eq (p : Str) : pathChunks [] p = (if (pathParts p).here then [c!"."] else []) ++ (pathParts p).names := by
  obtain ⟨h, t, h1, h2⟩ := pathChunks_split _ p [] (Nat.le_refl _)
  rw [h2]
  simp only [pathParts, h1, List.head?_cons, Option.some.injEq, List.nil_append]
  by_cases hh : h = c!"."
  · simp [hh, wholes]
  · by_cases he : h = [] <;> simp [hh, he, wholes]

/-- The shortest spelling of a path, without the slash at the start. -/
def noRoot (p : Str) : Str := (pathParts p).shw.dropWhile (· = '/')

theorem pathChunks_ok (p : Str) : ∀ c ∈ pathChunks [] p, c ≠ [] ∧ AllC (fun d => !(d == '/')) c := by
  rw [pathChunks_eq]
  intro c hc
  rcases List.mem_append.1 hc with hc | hc
  · split at hc
    · simp only [List.mem_singleton] at hc
      subst hc
      exact ⟨by simp, .cons (by decide) .nil⟩
    · simp at hc
  · simp only [pathParts, List.mem_filter, decide_eq_true_eq] at hc
    exact ⟨hc.2.1, splitOnC_chars _ _ _ hc.1⟩

theorem dropWhile_join {l : List Str} (h : ∀ c ∈ l, c ≠ [] ∧ AllC (fun d => !(d == '/')) c) :
    (join ['/'] l).dropWhile (· = '/') = join ['/'] l := by
  cases l with
  | nil => simp [join]
  | cons c l =>
    obtain ⟨h1, h2⟩ := h c (by simp)
    cases c with
    | nil => exact absurd rfl h1
    | cons d c =>
      have hd : d ≠ '/' := by simpa using h2.of_cons.1
      rw [join_slashed]
      simp [hd]

theorem noRoot_eq (p : Str) : noRoot p = join ['/'] (pathChunks [] p) := by
  have hok := pathChunks_ok p
  rw [noRoot, ← dropWhile_join hok]
  rw [pathChunks_eq] at hok ⊢
  have hrh : (pathParts p).root = true → (pathParts p).here = false := by
    intro h
    cases p with
    | nil => simp [pathParts, startsWith] at h
    | cons c p =>
      have hc : c = '/' := by
        simp only [pathParts, startsWith, List.isPrefixOf_cons₂, List.isPrefixOf_nil_left, Bool.and_true, beq_iff_eq] at h
        exact h.symm
      subst hc
      simp [pathParts, splitOnC]
  unfold PathParts.shw
  by_cases hr : (pathParts p).root = true
  · rw [if_pos hr, hrh hr]
    cases hn : (pathParts p).names with
    | nil => simp [join]
    | cons x l => simp [join_slashed, slashed_cons]
  · rw [if_neg hr]
    by_cases hh : (pathParts p).here = true
    · simp [hh, join_slashed]
    · rw [if_neg hh, if_neg hh]
      cases hn : (pathParts p).names with
      | nil => simp [join, slashed]
      | cons x l => simp [join_slashed, slashed_cons]

theorem noRoot_iff (p q : Str) : pathChunks [] p = pathChunks [] q ↔ noRoot p = noRoot q := by
  rw [noRoot_eq, noRoot_eq]
  refine ⟨fun h => by rw [h], fun h => ?_⟩
  have hp := pathChunks_ok p
  have hq := pathChunks_ok q
  have hne : ∀ {l : List Str}, (∀ c ∈ l, c ≠ [] ∧ AllC (fun d => !(d == '/')) c) → join ['/'] l = [] → l = [] := by
    intro l hl hj
    cases l with
    | nil => rfl
    | cons c l =>
      rw [join_slashed] at hj
      exact absurd (List.append_eq_nil_iff.1 hj).1 (hl c (by simp)).1
  by_cases h0 : pathChunks [] p = []
  · rw [h0] at h ⊢
    exact (hne hq (by rw [← h]; simp [join])).symm
  · by_cases h1 : pathChunks [] q = []
    · rw [h1] at h ⊢
      exact hne hp (by rw [h]; simp [join])
    · rw [← splitOnC_join h0 fun c hc => (hp c hc).2, h, splitOnC_join h1 fun c hc => (hq c hc).2]

theorem bytes_reads : ∀ (l m : List Str) (a b : Int) (x y : List (HCall D)),
    l.map HCall.bytes ++ .int 64 a :: x = m.map HCall.bytes ++ .int 64 b :: y ↔ l = m ∧ a = b ∧ x = y
  | [], [], a, b, x, y => by simp
  | [], _ :: _, a, b, x, y => by simp
  | _ :: _, [], a, b, x, y => by simp
  | c :: l, d :: m, a, b, x, y => by
    have := bytes_reads l m a b x y
    simp [this, and_assoc]

theorem pathFeed_reads : Reads (pathFeed (D := D)) noRoot := fun p q x y => by
  simp only [pathFeed, List.append_assoc, List.singleton_append, bytes_reads]
  rw [← noRoot_iff]
  exact ⟨fun h => ⟨h.1, h.2.2⟩, fun h => ⟨h.1, by rw [h.1], h.2⟩⟩

/-! Types of which all values differ -/

theorem variant_reads {i : α → Nat} (h : ∀ a b, i a = i b → a = b) : Reads (fun a => [(.variant (i a) : HCall D)]) id :=
  fun a b x y => by
    simp only [List.cons_append, List.nil_append, List.cons.injEq, HCall.variant.injEq, id]
    exact ⟨fun e => ⟨h _ _ e.1, e.2⟩, fun e => ⟨by rw [e.1], e.2⟩⟩

theorem TP.SampleSet.feed_reads : Reads (TP.SampleSet.feed (D := D)) id := fun a b x y => by
  cases a <;> cases b <;> simp [TP.SampleSet.feed, i32Feed_reads _ _ _ _]
theorem TP.SampleIndex.feed_reads : Reads (TP.SampleIndex.feed (D := D)) id := fun a b x y => by
  cases a <;> cases b <;> simp [TP.SampleIndex.feed, u32Feed_reads _ _ _ _]
theorem TP.Volume.feed_reads : Reads (TP.Volume.feed (D := D)) id := fun a b x y => by
  cases a; cases b; simp [TP.Volume.feed, i32Feed_reads _ _ _ _]
theorem TP.Effects.feed_reads : Reads (TP.Effects.feed (D := D)) id := fun a b x y => by
  cases a; cases b; simp [TP.Effects.feed, u32Feed_reads _ _ _ _]
theorem HO.ComboSkipCount.feed_reads : Reads (HO.ComboSkipCount.feed (D := D)) id := fun a b x y => by
  cases a; cases b; simp [HO.ComboSkipCount.feed, u8Feed_reads _ _ _ _]
theorem HO.SampleSet.feed_reads : Reads (HO.SampleSet.feed (D := D)) id := fun a b x y => by
  cases a <;> cases b <;> simp [HO.SampleSet.feed, usizeFeed_reads _ _ _ _]
theorem HO.EdgeSet.feed_reads : Reads (HO.EdgeSet.feed (D := D)) id := fun a b x y => by
  cases a; cases b; simp [HO.EdgeSet.feed, HO.SampleSet.feed_reads _ _ _ _, and_assoc]
theorem HO.Volume.feed_reads : Reads (HO.Volume.feed (D := D)) id := fun a b x y => by
  cases a; cases b; simp [HO.Volume.feed, optFeed_id u8Feed_reads _ _ _ _]
theorem HO.HitSound.feed_reads : Reads (HO.HitSound.feed (D := D)) id := fun a b x y => by
  cases a; cases b; simp [HO.HitSound.feed, boolFeed_reads _ _ _ _, and_assoc]
theorem HO.CurveType.feed_reads : Reads (HO.CurveType.feed (D := D)) id :=
  variant_reads fun a b h => by cases a <;> cases b <;> first | rfl | exact absurd h (by decide)
theorem HO.SampleIndex.feed_reads : Reads (HO.SampleIndex.feed (D := D)) id := fun a b x y => by
  cases a <;> cases b <;> simp [HO.SampleIndex.feed, usizeFeed_reads _ _ _ _]
theorem HO.HitSample.feed_reads : Reads (HO.HitSample.feed (D := D)) id := fun a b x y => by
  cases a; cases b
  simp [HO.HitSample.feed, HO.SampleSet.feed_reads _ _ _ _, HO.SampleIndex.feed_reads _ _ _ _, HO.Volume.feed_reads _ _ _ _,
    textFeed_reads _ _ _ _, and_assoc]
theorem Rgb.feed_reads : Reads (Rgb.feed (D := D)) id := fun a b x y => by
  cases a; cases b; simp [Rgb.feed, u8Feed_reads _ _ _ _, and_assoc]
theorem Colour.feed_reads : Reads (Colour.feed (D := D)) id := fun a b x y => by
  cases a <;> cases b <;> simp [Colour.feed, i32Feed_reads _ _ _ _, Rgb.feed_reads _ _ _ _, and_assoc]
theorem SB.SampleSet.feed_reads : Reads (SB.SampleSet.feed (D := D)) id :=
  variant_reads fun a b h => by cases a <;> cases b <;> first | rfl | exact absurd h (by decide)
theorem SB.Addition.feed_reads : Reads (SB.Addition.feed (D := D)) id :=
  variant_reads fun a b h => by cases a <;> cases b <;> first | rfl | exact absurd h (by decide)
theorem SB.TriggerType.feed_reads : Reads (SB.TriggerType.feed (D := D)) id := fun a b x y => by
  cases a with
  | hitSound h =>
    cases b with
    | hitSound k =>
      cases h; cases k
      simp [SB.TriggerType.feed, optFeed_id SB.SampleSet.feed_reads _ _ _ _, optFeed_id SB.Addition.feed_reads _ _ _ _,
        optFeed_id usizeFeed_reads _ _ _ _, and_assoc]
    | _ => simp [SB.TriggerType.feed]
  | _ => cases b <;> simp [SB.TriggerType.feed]
theorem SB.Easing.ctorIdx_inj {a b : SB.Easing} (ha : ∀ n, a ≠ .other n) (hb : ∀ n, b ≠ .other n) :
    a.ctorIdx = b.ctorIdx ↔ a = b := by
  constructor
  · intro h
    cases a <;> first | exact absurd rfl (ha _) | (cases b <;> first | exact absurd rfl (hb _) | rfl | exact absurd h (by decide))
  · intro h; rw [h]
theorem SB.Easing.ctorIdx_lt {a : SB.Easing} (ha : ∀ n, a ≠ .other n) : a.ctorIdx < 35 := by
  cases a <;> first | exact absurd rfl (ha _) | decide
theorem SB.Easing.feed_of {a : SB.Easing} (ha : ∀ n, a ≠ .other n) : a.feed (D := D) = [.variant a.ctorIdx] := by
  cases a <;> first | exact absurd rfl (ha _) | rfl
theorem SB.Easing.feed_reads : Reads (SB.Easing.feed (D := D)) id := fun a b x y => by
  by_cases ha : ∃ n, a = .other n <;> by_cases hb : ∃ n, b = .other n
  · obtain ⟨n, rfl⟩ := ha
    obtain ⟨m, rfl⟩ := hb
    simp [SB.Easing.feed, i32Feed_reads _ _ _ _]
  · obtain ⟨n, rfl⟩ := ha
    have hb : ∀ n, b ≠ .other n := fun n h => hb ⟨n, h⟩
    have := ctorIdx_lt hb
    rw [feed_of hb]
    simp only [SB.Easing.feed, List.cons_append, List.cons.injEq, HCall.variant.injEq, id]
    exact ⟨fun h => by omega, fun h => absurd h.1.symm (hb n)⟩
  · obtain ⟨n, rfl⟩ := hb
    have ha : ∀ n, a ≠ .other n := fun n h => ha ⟨n, h⟩
    have := ctorIdx_lt ha
    rw [feed_of ha]
    simp only [SB.Easing.feed, List.cons_append, List.cons.injEq, HCall.variant.injEq, id]
    exact ⟨fun h => by omega, fun h => absurd h.1 (ha n)⟩
  · have ha : ∀ n, a ≠ .other n := fun n h => ha ⟨n, h⟩
    have hb : ∀ n, b ≠ .other n := fun n h => hb ⟨n, h⟩
    rw [feed_of ha, feed_of hb]
    simp [ctorIdx_inj ha hb]
theorem SB.Parameter.feed_reads : Reads (SB.Parameter.feed (D := D)) id :=
  variant_reads fun a b h => by cases a <;> cases b <;> first | rfl | exact absurd h (by decide)
theorem SB.Colours.feed_reads : Reads (SB.Colours.feed (D := D)) id := fun a b x y => by
  have h : Reads (C := HCall D) (fun x : UInt8 × Option UInt8 × Option UInt8 =>
      u8Feed x.1 ++ (optFeed u8Feed x.2.1 ++ optFeed u8Feed x.2.2)) id :=
    fun a b x y => by
      obtain ⟨a1, a2, a3⟩ := a
      obtain ⟨b1, b2, b3⟩ := b
      simp [u8Feed_reads _ _ _ _, optFeed_id u8Feed_reads _ _ _ _, and_assoc]
  obtain ⟨⟨a1, a2, a3⟩, a4⟩ := a
  obtain ⟨⟨b1, b2, b3⟩, b4⟩ := b
  simp [SB.Colours.feed, u8Feed_reads _ _ _ _, listFeed_id h _ _ _ _, and_assoc]
theorem SB.Layer.feed_reads : Reads (SB.Layer.feed (D := D)) id :=
  variant_reads fun a b h => by cases a <;> cases b <;> first | rfl | exact absurd h (by decide)
theorem SB.OriginType.feed_reads : Reads (SB.OriginType.feed (D := D)) id :=
  variant_reads fun a b h => by cases a <;> cases b <;> first | rfl | exact absurd h (by decide)
theorem SB.Origin.feed_reads : Reads (SB.Origin.feed (D := D)) id := fun a b x y => by
  obtain ⟨a | a, c⟩ := a <;> obtain ⟨b | b, d⟩ := b <;>
    simp [SB.Origin.feed, SB.OriginType.feed_reads _ _ _ _, i32Feed_reads _ _ _ _, boolFeed_reads _ _ _ _, and_assoc]
theorem SB.LoopType.feed_reads : Reads (SB.LoopType.feed (D := D)) id :=
  variant_reads fun a b h => by cases a <;> cases b <;> first | rfl | exact absurd h (by decide)
theorem Ev.LayerLegacy.feed_reads : Reads (Ev.LayerLegacy.feed (D := D)) id :=
  variant_reads fun a b h => by cases a <;> cases b <;> first | rfl | exact absurd h (by decide)
theorem Ev.OriginLegacy.feed_reads : Reads (Ev.OriginLegacy.feed (D := D)) id :=
  variant_reads fun a b h => by cases a <;> cases b <;> first | rfl | exact absurd h (by decide)
theorem Ev.AudioLayer.feed_reads : Reads (Ev.AudioLayer.feed (D := D)) id :=
  variant_reads fun a b h => by cases a <;> cases b <;> first | rfl | exact absurd h (by decide)
theorem Ev.Volume.feed_reads : Reads (Ev.Volume.feed (D := D)) id := fun a b x y => by
  cases a; cases b; simp [Ev.Volume.feed, u8Feed_reads _ _ _ _]
theorem Ev.Break.feed_reads : Reads (Ev.Break.feed (D := D)) id := fun a b x y => by
  cases a; cases b; simp [Ev.Break.feed, i32Feed_reads _ _ _ _, boolFeed_reads _ _ _ _, and_assoc]
theorem Ev.ColourTransformation.feed_reads : Reads (Ev.ColourTransformation.feed (D := D)) id := fun a b x y => by
  cases a; cases b; simp [Ev.ColourTransformation.feed, i32Feed_reads _ _ _ _, u8Feed_reads _ _ _ _, and_assoc]
theorem Variable.feed_reads : Reads (Variable.feed (D := D)) id := fun a b x y => by
  cases a; cases b; simp [Variable.feed, textFeed_reads _ _ _ _, and_assoc]
theorem Countdown.feed_reads : Reads (Countdown.feed (D := D)) id :=
  variant_reads fun a b h => by cases a <;> cases b <;> first | rfl | exact absurd h (by decide)
theorem GSampleSet.feed_reads : Reads (GSampleSet.feed (D := D)) id :=
  variant_reads fun a b h => by cases a <;> cases b <;> first | rfl | exact absurd h (by decide)
theorem Mode.feed_reads : Reads (Mode.feed (D := D)) id :=
  variant_reads fun a b h => by cases a <;> cases b <;> first | rfl | exact absurd h (by decide)
theorem OverlayPosition.feed_reads : Reads (OverlayPosition.feed (D := D)) id :=
  variant_reads fun a b h => by cases a <;> cases b <;> first | rfl | exact absurd h (by decide)

end

section
variable {D : Type} [DecSame D]
open DecSame (norm)

theorem numberFeed_reads : Reads (numberFeed (D := D)) norm := fun a b x y => by simp [numberFeed]

theorem Decimal.feed_reads : Reads (Decimal.feed (D := D)) (Decimal.respell norm) := fun a b x y => by
  cases a <;> cases b <;> simp [Decimal.feed, Decimal.respell, numberFeed_reads _ _ _ _, textFeed_reads _ _ _ _]

theorem Position.feed_reads : Reads (Position.feed (D := D)) (Position.respell norm) := fun a b x y => by
  simp [Position.feed, Position.respell, Decimal.feed_reads _ _ _ _, and_assoc]

theorem TimingPoint.feed_reads : Reads (TimingPoint.feed (D := D)) (TimingPoint.respell norm) := fun a b x y => by
  cases a; cases b
  simp [TimingPoint.feed, TimingPoint.respell, Decimal.feed_reads _ _ _ _, i32Feed_reads _ _ _ _, TP.SampleSet.feed_reads _ _ _ _,
    TP.SampleIndex.feed_reads _ _ _ _, TP.Volume.feed_reads _ _ _ _, optFeed_id boolFeed_reads _ _ _ _,
    optFeed_id TP.Effects.feed_reads _ _ _ _, and_assoc]

theorem HO.CurvePoint.feed_reads : Reads (HO.CurvePoint.feed (D := D)) (fun c => (⟨c.pos.respell norm⟩ : HO.CurvePoint D)) :=
  fun a b x y => by simp [HO.CurvePoint.feed, Position.feed_reads _ _ _ _]

theorem HOParams.feed_reads : Reads (HOParams.feed (D := D)) (HOParams.respell norm) := fun a b x y => by
  cases a with
  | slider s =>
    cases b with
    | slider t =>
      cases s; cases t
      simp [HOParams.feed, HOParams.respell, SlideParams.feed, HO.CurveType.feed_reads _ _ _ _,
        listFeed_reads HO.CurvePoint.feed_reads _ _ _ _, i32Feed_reads _ _ _ _, Decimal.feed_reads _ _ _ _,
        listFeed_id HO.HitSound.feed_reads _ _ _ _, boolFeed_reads _ _ _ _, listFeed_id HO.EdgeSet.feed_reads _ _ _ _, and_assoc]
    | _ => simp [HOParams.feed, HOParams.respell]
  | _ => cases b <;> simp [HOParams.feed, HOParams.respell, Decimal.feed_reads _ _ _ _]

theorem HitObject.feed_reads : Reads (HitObject.feed (D := D)) (HitObject.respell norm) := fun a b x y => by
  cases a; cases b
  simp [HitObject.feed, HitObject.respell, Position.feed_reads _ _ _ _, Decimal.feed_reads _ _ _ _, HOParams.feed_reads _ _ _ _,
    boolFeed_reads _ _ _ _, HO.ComboSkipCount.feed_reads _ _ _ _, HO.HitSound.feed_reads _ _ _ _,
    optFeed_id HO.HitSample.feed_reads _ _ _ _, and_assoc]

theorem pairsFeed_reads : Reads (pairsFeed (D := D)) (pairsRespell norm) := fun a b x y => by
  have h : Reads (C := HCall D) (fun a : Decimal D × Option (Decimal D) => a.1.feed ++ optFeed Decimal.feed a.2)
      (fun a => (a.1.respell norm, a.2.map (Decimal.respell norm))) := fun a b x y => by
    simp [Decimal.feed_reads _ _ _ _, optFeed_reads Decimal.feed_reads _ _ _ _, and_assoc]
  simp [pairsFeed, pairsRespell, Decimal.feed_reads _ _ _ _, listFeed_reads h _ _ _ _, and_assoc]

theorem cmdsRespell_eq_map (d : D → D) : ∀ l : List (Command D), cmdsRespell d l = l.map (SB.Command.respell d)
  | [] => by simp [cmdsRespell]
  | c :: l => by simp [cmdsRespell, cmdsRespell_eq_map d l]

mutual
theorem SB.Command.feed_reads : ∀ (a b : Command D) (x y : List (HCall D)), a.feed ++ x = b.feed ++ y ↔
    a.respell norm = b.respell norm ∧ x = y
  | .mk t p, .mk u q, x, y => by
    simp [SB.Command.feed, SB.Command.respell, optFeed_id i32Feed_reads _ _ _ _, propsFeed_reads p q, and_assoc]
theorem SB.propsFeed_reads : ∀ (p q : CmdProps D (Command D)) (x y : List (HCall D)), propsFeed p ++ x = propsFeed q ++ y ↔
    propsRespell norm p = propsRespell norm q ∧ x = y
  | .loop n c, q, x, y => by
    cases q with
    | loop n' c' =>
      simp only [propsFeed, propsRespell, List.cons_append, List.append_assoc, List.cons.injEq, u32Feed_reads _ _ _ _, id,
        HCall.length.injEq, CmdProps.loop.injEq, true_and]
      have := cmdsFeed_reads c c' x y
      simp only [and_assoc]
      rw [this]
    | _ => simp [propsFeed, propsRespell]
  | .trigger k t g c, q, x, y => by
    cases q with
    | trigger k' t' g' c' =>
      simp only [propsFeed, propsRespell, List.cons_append, List.append_assoc, List.cons.injEq, optFeed_id i32Feed_reads _ _ _ _,
        SB.TriggerType.feed_reads _ _ _ _, id, HCall.length.injEq, CmdProps.trigger.injEq, true_and]
      have := cmdsFeed_reads c c' x y
      simp only [and_assoc]
      rw [this]
    | _ => simp [propsFeed, propsRespell]
  | .fade .., q, x, y | .move .., q, x, y | .moveX .., q, x, y | .moveY .., q, x, y | .scale .., q, x, y
  | .vectorScale .., q, x, y | .rotate .., q, x, y | .colour .., q, x, y | .parameter .., q, x, y => by
    cases q <;> simp [propsFeed, propsRespell, SB.Easing.feed_reads _ _ _ _, optFeed_id i32Feed_reads _ _ _ _,
      Decimal.feed_reads _ _ _ _, listFeed_reads Decimal.feed_reads _ _ _ _, pairsFeed_reads _ _ _ _,
      SB.Colours.feed_reads _ _ _ _, SB.Parameter.feed_reads _ _ _ _, listFeed_id SB.Parameter.feed_reads _ _ _ _, and_assoc]
theorem SB.cmdsFeed_reads : ∀ (a b : List (Command D)) (x y : List (HCall D)), a.length = b.length ∧ cmdsFeed a ++ x = cmdsFeed b ++ y ↔
    cmdsRespell norm a = cmdsRespell norm b ∧ x = y
  | [], [], x, y => by simp [cmdsFeed, cmdsRespell]
  | [], _ :: _, x, y => by simp [cmdsRespell]
  | _ :: _, [], x, y => by simp [cmdsRespell]
  | a :: as, b :: bs, x, y => by
    have := cmdsFeed_reads as bs x y
    simp only [cmdsFeed, cmdsRespell, List.append_assoc, SB.Command.feed_reads a b, List.length_cons, Nat.add_right_cancel_iff,
      List.cons.injEq, and_assoc, and_left_comm (a := as.length = bs.length), this]
end

theorem cmdsFeed_cons (a b : List (Command D)) (x y : List (HCall D)) :
    HCall.length a.length :: (cmdsFeed a ++ x) = HCall.length b.length :: (cmdsFeed b ++ y) ↔
      cmdsRespell norm a = cmdsRespell norm b ∧ x = y := by
  rw [List.cons.injEq, HCall.length.injEq, cmdsFeed_reads]

theorem SB.ObjectType.feed_reads : Reads (SB.ObjectType.feed (D := D)) (SB.ObjectType.respell norm noRoot) := fun a b x y => by
  cases a <;> cases b <;> simp [SB.ObjectType.feed, SB.ObjectType.respell, pathFeed_reads _ _ _ _, u32Feed_reads _ _ _ _,
    numberFeed_reads _ _ _ _, SB.LoopType.feed_reads _ _ _ _, and_assoc]

theorem Ev.Event.feed_reads : Reads (Ev.Event.feed (D := D)) (Ev.Event.respell norm noRoot) := fun a b x y => by
  cases a with
  | comment s => cases b <;> simp [Event.feed, Event.respell, textFeed_reads _ _ _ _]
  | background s =>
    cases b with
    | background t =>
      cases s; cases t
      simp only [Event.feed, Event.respell, Background.feed, List.cons_append, List.append_assoc, List.cons.injEq, true_and,
        i32Feed_reads _ _ _ _, pathFeed_reads _ _ _ _, optFeed_reads Position.feed_reads _ _ _ _, id]
      rw [← List.cons.injEq, cmdsFeed_cons]
      simp [and_assoc]
    | _ => simp [Event.feed, Event.respell]
  | video s =>
    cases b with
    | video t =>
      cases s; cases t
      simp only [Event.feed, Event.respell, Video.feed, List.cons_append, List.append_assoc, List.cons.injEq, true_and,
        i32Feed_reads _ _ _ _, pathFeed_reads _ _ _ _, optFeed_reads Position.feed_reads _ _ _ _, id]
      rw [← List.cons.injEq, cmdsFeed_cons]
      simp [boolFeed_reads _ _ _ _, and_assoc]
    | _ => simp [Event.feed, Event.respell]
  | break_ s => cases b <;> simp [Event.feed, Event.respell, Break.feed_reads _ _ _ _]
  | colourTransformation s => cases b <;> simp [Event.feed, Event.respell, ColourTransformation.feed_reads _ _ _ _]
  | spriteLegacy s =>
    cases b with
    | spriteLegacy t =>
      cases s; cases t
      simp only [Event.feed, Event.respell, SpriteLegacy.feed, List.cons_append, List.append_assoc, List.cons.injEq, true_and,
        LayerLegacy.feed_reads _ _ _ _, OriginLegacy.feed_reads _ _ _ _, pathFeed_reads _ _ _ _, optFeed_reads Position.feed_reads _ _ _ _, id]
      rw [← List.cons.injEq, cmdsFeed_cons]
      simp [and_assoc]
    | _ => simp [Event.feed, Event.respell]
  | animationLegacy s =>
    cases b with
    | animationLegacy t =>
      cases s; cases t
      simp only [Event.feed, Event.respell, SpriteLegacy.feed, List.cons_append, List.append_assoc, List.cons.injEq, true_and,
        LayerLegacy.feed_reads _ _ _ _, OriginLegacy.feed_reads _ _ _ _, pathFeed_reads _ _ _ _, optFeed_reads Position.feed_reads _ _ _ _, id]
      rw [← List.cons.injEq, cmdsFeed_cons]
      simp [and_assoc]
    | _ => simp [Event.feed, Event.respell]
  | sampleLegacy s =>
    cases b with
    | sampleLegacy t =>
      cases s; cases t
      simp only [Event.feed, Event.respell, SampleLegacy.feed, List.cons_append, List.append_assoc, List.cons.injEq, true_and,
        Decimal.feed_reads _ _ _ _, LayerLegacy.feed_reads _ _ _ _, pathFeed_reads _ _ _ _,
        optFeed_id Ev.Volume.feed_reads _ _ _ _, id]
      rw [← List.cons.injEq, cmdsFeed_cons]
      simp [and_assoc]
    | _ => simp [Event.feed, Event.respell]
  | object s =>
    cases b with
    | object t =>
      cases s; cases t
      simp only [Event.feed, Event.respell, SB.Object.feed, List.cons_append, List.append_assoc, List.cons.injEq, true_and,
        SB.Layer.feed_reads _ _ _ _, SB.Origin.feed_reads _ _ _ _, Position.feed_reads _ _ _ _,
        SB.ObjectType.feed_reads _ _ _ _, id]
      rw [← List.cons.injEq, cmdsFeed_cons]
      simp [and_assoc]
    | _ => simp [Event.feed, Event.respell]
  | audioSample s =>
    cases b with
    | audioSample t =>
      cases s; cases t
      simp [Event.feed, Event.respell, AudioSample.feed, i32Feed_reads _ _ _ _, AudioLayer.feed_reads _ _ _ _, pathFeed_reads _ _ _ _,
        Ev.Volume.feed_reads _ _ _ _, and_assoc]
    | _ => simp [Event.feed, Event.respell]

theorem Osb.feed_reads : Reads (Osb.feed (D := D)) (Osb.respell norm noRoot) := fun a b x y => by
  cases a; cases b
  simp [Osb.feed, Osb.respell, optFeed_id (listFeed_id Variable.feed_reads) _ _ _ _,
    optFeed_reads (listFeed_reads Ev.Event.feed_reads) _ _ _ _, and_assoc]

omit [DecSame D] in
theorem fields_reads {S : Schema} {f : (k : S.Key) → S.Val k → List (HCall D)} {r : (k : S.Key) → S.Val k → S.Val k}
    (h : ∀ k, Reads (f k) (r k)) (s t : S.Section) : ∀ (ks : List S.Key) (x y : List (HCall D)),
    (ks.flatMap fun k => optFeed (f k) (s k)) ++ x = (ks.flatMap fun k => optFeed (f k) (t k)) ++ y ↔
      (∀ k ∈ ks, (s k).map (r k) = (t k).map (r k)) ∧ x = y
  | [], x, y => by simp
  | k :: ks, x, y => by
    have := fields_reads h s t ks x y
    simp [optFeed_reads (h k) _ _ _ _, this, and_assoc]

omit [DecSame D] in
theorem Schema.feed_reads {S : Schema} (hall : ∀ k, k ∈ S.keys) {f : (k : S.Key) → S.Val k → List (HCall D)}
    {r : (k : S.Key) → S.Val k → S.Val k} (h : ∀ k, Reads (f k) (r k)) :
    Reads (S.feed f) (fun s k => (s k).map (r k)) := fun s t x y => by
  rw [Schema.feed, Schema.feed, fields_reads h]
  simp only [hall, true_implies, funext_iff]

theorem GKey.feed_reads (k : GKey) : Reads (GKey.feed (D := D) k) (GKey.respell norm noRoot k) := by
  cases k <;> first | exact pathFeed_reads | exact Decimal.feed_reads | exact i32sFeed_reads | exact i32Feed_reads | exact textFeed_reads |
    exact boolFeed_reads | exact Countdown.feed_reads | exact GSampleSet.feed_reads | exact Mode.feed_reads |
    exact OverlayPosition.feed_reads

theorem EKey.feed_reads (k : EKey) : Reads (EKey.feed (D := D) k) (EKey.respell norm k) := by
  cases k <;> first | exact Decimal.feed_reads | exact i32sFeed_reads | exact i32Feed_reads

omit [DecSame D] in
theorem MKey.feed_reads (k : MKey) : Reads (MKey.feed (D := D) k) id := by
  cases k <;> first | exact textFeed_reads | exact i32Feed_reads | exact listFeed_id textFeed_reads

variable [DecLib D]

theorem OsuFile.feed_reads : Reads (OsuFile.feed (D := D)) (OsuFile.respell norm noRoot) := fun f g x y => by
  have hG := optFeed_reads (Schema.feed_reads (S := General D) GKey.mem_all (GKey.feed_reads (D := D)))
  have hE := optFeed_reads (Schema.feed_reads (S := Editor D) EKey.mem_all (EKey.feed_reads (D := D)))
  have hD := optFeed_reads (Schema.feed_reads (S := Difficulty D) DKey.mem_all (fun _ => Decimal.feed_reads (D := D)))
  have hM : Reads (optFeed (Metadata.feed (MKey.feed (D := D)))) id := by
    refine optFeed_id fun a b x y => ?_
    have := Schema.feed_reads (S := Metadata) (D := D) (fun k : MKey => (by cases k <;> decide : k ∈ MKey.all))
      (r := fun _ x => x) MKey.feed_reads a b x y
    simp only [Option.map_id'] at this
    exact this
  cases f; cases g
  simp only [OsuFile.feed, OsuFile.respell, List.cons_append, List.append_assoc, List.cons.injEq, HCall.int.injEq, true_and,
    hG _ _ _ _, hE _ _ _ _, hD _ _ _ _, hM _ _ _ _, optFeed_reads Osb.feed_reads _ _ _ _,
    optFeed_reads (listFeed_reads Ev.Event.feed_reads) _ _ _ _, optFeed_reads (listFeed_reads TimingPoint.feed_reads) _ _ _ _,
    optFeed_id (listFeed_id Colour.feed_reads) _ _ _ _, optFeed_reads (listFeed_reads HitObject.feed_reads) _ _ _ _,
    OsuFile.mk.injEq, id, and_assoc, Int.natCast_inj]
  exact Iff.rfl

end

end Osu
