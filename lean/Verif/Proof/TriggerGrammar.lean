/-
Trigger types: which texts are read, as what, and which ones panic.
-/
import Verif.Proof.Trigger

namespace Osu
namespace SB
namespace TriggerType

theorem sampleSet_iff {s : Str} {a : SampleSet} : SampleSet.parse s = some a ↔ s = a.shw := by
  unfold SampleSet.parse
  constructor
  · intro h
    split at h
    · rename_i e; cases h; exact e
    · split at h
      · rename_i e; cases h; exact e
      · split at h
        · rename_i e; cases h; exact e
        · split at h
          · rename_i e; cases h; exact e
          · cases h
  · rintro rfl; cases a <;> rfl

theorem addition_iff {s : Str} {a : Addition} : Addition.parse s = some a ↔ s = a.shw := by
  unfold Addition.parse
  constructor
  · intro h
    split at h
    · rename_i e; cases h; exact e
    · split at h
      · rename_i e; cases h; exact e
      · split at h
        · rename_i e; cases h; exact e
        · cases h
  · rintro rfl; cases a <;> rfl

/-! ### Stages -/

theorem all4 (h h' : HitSound) (fs : List Str) :
    (tryAll 4 h fs = .ok h' ↔ fs = [] ∧ h' = h) ∧ (tryAll 4 h fs = .panic ↔ fs ≠ []) := by
  cases fs with
  | nil => simp [tryAll, eq_comm]
  | cons f fs => simp [tryAll, tryAt]

theorem all3 (h h' : HitSound) (fs : List Str) :
    (tryAll 3 h fs = .ok h' ↔ (fs = [] ∧ h' = h) ∨ ∃ f n, fs = [f] ∧ parseUsize f = .ok n ∧ h' = { h with customSampleSet := some n }) ∧
    (tryAll 3 h fs = .panic ↔ ∃ f n w more, fs = f :: w :: more ∧ parseUsize f = .ok n) := by
  cases fs with
  | nil => simp [tryAll, eq_comm]
  | cons f fs =>
    rw [tryAll, tryAt, try3]
    cases hf : parseUsize f with
    | ok n =>
      simp only
      have := all4 { h with customSampleSet := some n } h' fs
      rw [this.1, this.2]
      constructor
      · constructor
        · rintro ⟨rfl, rfl⟩; exact .inr ⟨f, n, rfl, hf, rfl⟩
        · rintro (⟨h, -⟩ | ⟨f', n', h1, h2, rfl⟩)
          · cases h
          · injection h1 with h1 h3
            subst h1 h3
            rw [hf] at h2; cases h2; exact ⟨rfl, rfl⟩
      · constructor
        · intro h
          cases fs with
          | nil => exact absurd rfl h
          | cons w more => exact ⟨f, n, w, more, rfl, hf⟩
        · rintro ⟨f', n', w, more, h1, _⟩
          injection h1 with _ h1
          rw [h1]; simp
    | err e =>
      simp only
      refine ⟨⟨?_, ?_⟩, ⟨?_, ?_⟩⟩
      · intro h; cases h
      · rintro (⟨h, -⟩ | ⟨f', n', h1, h2, rfl⟩)
        · cases h
        · injection h1 with h1; subst h1; rw [hf] at h2; cases h2
      · intro h; cases h
      · rintro ⟨f', n', w, more, h1, h2⟩
        injection h1 with h1; subst h1; rw [hf] at h2; cases h2
    | panic => exact absurd hf (parseUsize_no_panic f)

theorem all2_some (h : HitSound) (a : Addition) (fs : List Str) :
    tryAll 2 h (a.shw :: fs) = tryAll 3 { h with addition := some a } fs := by
  rw [tryAll, tryAt, try2, addition_iff.2 rfl]

theorem all2_none (h : HitSound) {fs : List Str} (hf : ∀ a : Addition, fs.head? ≠ some a.shw) : tryAll 2 h fs = tryAll 3 h fs := by
  cases fs with
  | nil => rfl
  | cons f fs =>
    rw [tryAll, tryAll, tryAt, tryAt, try2]
    cases hp : Addition.parse f with
    | none => rfl
    | some a => exact absurd (congrArg some (addition_iff.1 hp)) (hf a)

theorem all1_some (h : HitSound) (a : SampleSet) (fs : List Str) :
    tryAll 1 h (a.shw :: fs) = tryAll 2 { h with additionsSampleSet := some a } fs := by
  rw [tryAll, tryAt, try1, sampleSet_iff.2 rfl]

theorem all1_none (h : HitSound) {fs : List Str} (hf : ∀ a : SampleSet, fs.head? ≠ some a.shw) : tryAll 1 h fs = tryAll 2 h fs := by
  cases fs with
  | nil => rfl
  | cons f fs =>
    rw [tryAll, tryAll, tryAt, tryAt, try1]
    cases hp : SampleSet.parse f with
    | none => rfl
    | some a => exact absurd (congrArg some (sampleSet_iff.1 hp)) (hf a)

theorem all0_some (h : HitSound) (a : SampleSet) (fs : List Str) :
    tryAll 0 h (a.shw :: fs) = tryAll 1 { h with sampleSet := some a } fs := by
  rw [tryAll, tryAt, try0, sampleSet_iff.2 rfl]

theorem all0_none (h : HitSound) {fs : List Str} (hf : ∀ a : SampleSet, fs.head? ≠ some a.shw) : tryAll 0 h fs = tryAll 2 h fs := by
  cases fs with
  | nil => rfl
  | cons f fs =>
    rw [tryAll, tryAll, tryAt, tryAt, try0, try1]
    cases hp : SampleSet.parse f with
    | none => rfl
    | some a => exact absurd (congrArg some (sampleSet_iff.1 hp)) (hf a)

/-- The optional first word of some kind. -/
theorem head_cases {α : Type} (shw : α → Str) (fs : List Str) :
    (∃ a fs', fs = shw a :: fs') ∨ ∀ a, fs.head? ≠ some (shw a) := by
  cases fs with
  | nil => exact .inr fun a h => by cases h
  | cons f fs =>
    by_cases h : ∃ a, f = shw a
    · obtain ⟨a, rfl⟩ := h; exact .inl ⟨a, fs, rfl⟩
    · refine .inr fun a h' => h ⟨a, ?_⟩
      simpa using h'

theorem number_not_name {w : Str} {n : UInt64} (h : parseUsize w = .ok n) : SampleSet.parse w = none ∧ Addition.parse w = none := by
  constructor
  · cases hp : SampleSet.parse w with
    | none => rfl
    | some a => rw [sampleSet_iff.1 hp] at h; exfalso; revert h; cases a <;> (intro h; cases h)
  · cases hp : Addition.parse w with
    | none => rfl
    | some a => rw [addition_iff.1 hp] at h; exfalso; revert h; cases a <;> (intro h; cases h)

/-- The last stages: the optional number. -/
def NumTail (num : List Str) (n : Option UInt64) : Prop :=
  (num = [] ∧ n = none) ∨ ∃ w k, num = [w] ∧ parseUsize w = .ok k ∧ n = some k

theorem numTail_head {num : List Str} {n : Option UInt64} (h : NumTail num n) (more : List Str) :
    num ++ more = more ∨ ((∀ a : SampleSet, (num ++ more).head? ≠ some a.shw) ∧ ∀ a : Addition, (num ++ more).head? ≠ some a.shw) := by
  rcases h with ⟨rfl, -⟩ | ⟨w, k, rfl, hk, -⟩
  · exact .inl rfl
  · right
    have := number_not_name hk
    constructor
    · intro a h
      rw [List.singleton_append, List.head?_cons, Option.some.injEq] at h
      rw [sampleSet_iff.2 h] at this; cases this.1
    · intro a h
      rw [List.singleton_append, List.head?_cons, Option.some.injEq] at h
      rw [addition_iff.2 h] at this; cases this.2

theorem shw_ne (a : SampleSet) (b : Addition) : a.shw ≠ b.shw := by
  intro h; revert h; cases a <;> cases b <;> decide

theorem words_all {ws : List Str} {h : HitSound} (hw : HitSoundWords ws h) : tryAll 0 {} ws = .ok h := by
  obtain ⟨s, a, ad, cu⟩ := h
  obtain ⟨h1, num, rfl, hn⟩ := hw
  simp only at h1 hn
  have fin : ∀ h0 : HitSound, h0.customSampleSet = none → tryAll 3 h0 num = .ok { h0 with customSampleSet := cu } := by
    intro h0 h00
    rw [(all3 _ _ _).1]
    rcases hn with ⟨rfl, rfl⟩ | ⟨w, n, rfl, hk, rfl⟩
    · left
      obtain ⟨_, _, _, _⟩ := h0
      simp only at h00; subst h00
      exact ⟨rfl, rfl⟩
    · exact .inr ⟨w, n, rfl, hk, rfl⟩
  have hd : num = [] ∨ ((∀ a : SampleSet, num.head? ≠ some a.shw) ∧ ∀ a : Addition, num.head? ≠ some a.shw) := by
    have := numTail_head hn []
    simpa using this
  have n2 : ∀ a : Addition, num.head? ≠ some a.shw := by
    rcases hd with rfl | h
    · intro a h; cases h
    · exact h.2
  have n1 : ∀ a : SampleSet, num.head? ≠ some a.shw := by
    rcases hd with rfl | h
    · intro a h; cases h
    · exact h.1
  have n1' : ∀ (ad : Option Addition), ∀ a : SampleSet, ((ad.map Addition.shw).toList ++ num).head? ≠ some a.shw := by
    intro ad a
    cases ad with
    | none => exact n1 a
    | some b => intro h; simp at h; exact shw_ne a b h.symm
  have f2 : ∀ h0 : HitSound, h0.customSampleSet = none → h0.addition = none →
      tryAll 2 h0 ((ad.map Addition.shw).toList ++ num) = .ok { h0 with addition := ad, customSampleSet := cu } := by
    intro h0 h00 h01
    cases ad with
    | none =>
      rw [show ((none : Option Addition).map Addition.shw).toList ++ num = num from rfl, all2_none _ n2, fin h0 h00]
      obtain ⟨_, _, _, _⟩ := h0
      simp only at h01; subst h01; rfl
    | some b =>
      rw [show ((some b).map Addition.shw).toList ++ num = b.shw :: num from rfl, all2_some]
      exact fin _ h00
  cases s with
  | none =>
    rw [h1 rfl] at *
    simp only [Option.map_none, Option.toList_none, List.nil_append]
    rw [all0_none _ (n1' ad), f2 _ rfl rfl]
  | some s =>
    simp only [Option.map_some, Option.toList_some, List.singleton_append, List.cons_append, List.append_assoc, List.nil_append]
    rw [all0_some]
    cases a with
    | none =>
      simp only [Option.map_none, Option.toList_none, List.nil_append]
      rw [all1_none _ (n1' ad), f2 _ rfl rfl]
    | some a =>
      simp only [Option.map_some, Option.toList_some, List.singleton_append, List.cons_append, List.nil_append]
      rw [all1_some, f2 _ rfl rfl]

/-- What the fields can mean, or where the panic comes from. -/
theorem all_split (fs : List Str) :
    (∃ h, tryAll 0 {} fs = .ok h ∧ HitSoundWords fs h) ∨
    (∃ ws w more h, tryAll 0 {} fs = .panic ∧ fs = ws ++ w :: more ∧ HitSoundWords ws h ∧ h.customSampleSet ≠ none) ∨
    ∃ e, tryAll 0 {} fs = .err e := by
  have s3 : ∀ (pre : List Str) (h : HitSound) (rest : List Str), h.customSampleSet = none →
      (h.sampleSet = none → h.additionsSampleSet = none) →
      pre = (h.sampleSet.map SampleSet.shw).toList ++ (h.additionsSampleSet.map SampleSet.shw).toList ++
        (h.addition.map Addition.shw).toList →
      (∃ h', tryAll 3 h rest = .ok h' ∧ HitSoundWords (pre ++ rest) h') ∨
      (∃ ws w more h', tryAll 3 h rest = .panic ∧ pre ++ rest = ws ++ w :: more ∧ HitSoundWords ws h' ∧ h'.customSampleSet ≠ none) ∨
      ∃ e, tryAll 3 h rest = .err e := by
    intro pre h rest hc ha hp
    cases hr : tryAll 3 h rest with
    | ok h' =>
      refine .inl ⟨h', rfl, ?_⟩
      rcases ((all3 h h' rest).1).1 hr with ⟨rfl, rfl⟩ | ⟨f, n, rfl, hn, rfl⟩
      · exact ⟨ha, [], by rw [hp], .inl ⟨rfl, hc⟩⟩
      · exact ⟨ha, [f], by rw [hp], .inr ⟨f, n, rfl, hn, rfl⟩⟩
    | panic =>
      obtain ⟨f, n, w, more, rfl, hn⟩ := ((all3 h h rest).2).1 hr
      refine .inr (.inl ⟨pre ++ [f], w, more, { h with customSampleSet := some n }, rfl, by simp, ?_, by simp⟩)
      exact ⟨ha, [f], by rw [hp], .inr ⟨f, n, rfl, hn, rfl⟩⟩
    | err e => exact .inr (.inr ⟨e, rfl⟩)
  have s2 : ∀ (pre : List Str) (h : HitSound) (rest : List Str), h.customSampleSet = none → h.addition = none →
      (h.sampleSet = none → h.additionsSampleSet = none) →
      pre = (h.sampleSet.map SampleSet.shw).toList ++ (h.additionsSampleSet.map SampleSet.shw).toList →
      (∃ h', tryAll 2 h rest = .ok h' ∧ HitSoundWords (pre ++ rest) h') ∨
      (∃ ws w more h', tryAll 2 h rest = .panic ∧ pre ++ rest = ws ++ w :: more ∧ HitSoundWords ws h' ∧ h'.customSampleSet ≠ none) ∨
      ∃ e, tryAll 2 h rest = .err e := by
    intro pre h rest hc had ha hp
    rcases head_cases Addition.shw rest with ⟨a, rest', rfl⟩ | hn
    · have := s3 (pre ++ [a.shw]) { h with addition := some a } rest' hc ha (by rw [hp]; rfl)
      rw [all2_some]
      simpa using this
    · rw [all2_none _ hn]
      exact s3 pre h rest hc ha (by rw [hp, had]; simp)
  rcases head_cases SampleSet.shw fs with ⟨a, fs', rfl⟩ | hn
  · rw [all0_some]
    rcases head_cases SampleSet.shw fs' with ⟨b, fs'', rfl⟩ | hn'
    · rw [all1_some]
      exact s2 [a.shw, b.shw] _ fs'' rfl rfl (by simp) rfl
    · rw [all1_none _ hn']
      exact s2 [a.shw] _ fs' rfl rfl (by simp) rfl
  · rw [all0_none _ hn]
    exact s2 [] _ fs rfl rfl (by simp) rfl

theorem all_panic {ws : List Str} {w : Str} {more : List Str} {h : HitSound} (hw : HitSoundWords ws h)
    (hc : h.customSampleSet ≠ none) : tryAll 0 {} (ws ++ w :: more) = .panic := by
  obtain ⟨s, a, ad, cu⟩ := h
  obtain ⟨h1, num, rfl, hn⟩ := hw
  simp only at h1 hn hc
  rcases hn with ⟨-, rfl⟩ | ⟨x, n, rfl, hk, rfl⟩
  · exact absurd rfl hc
  have fin : ∀ h0 : HitSound, tryAll 3 h0 (x :: w :: more) = .panic := fun h0 =>
    ((all3 h0 h0 _).2).2 ⟨x, n, w, more, rfl, hk⟩
  have nm := number_not_name hk
  have n2 : ∀ a : Addition, (x :: w :: more).head? ≠ some a.shw := by
    intro a h; simp at h; rw [addition_iff.2 h] at nm; cases nm.2
  have n1 : ∀ a : SampleSet, (x :: w :: more).head? ≠ some a.shw := by
    intro a h; simp at h; rw [sampleSet_iff.2 h] at nm; cases nm.1
  have n1' : ∀ (ad : Option Addition), ∀ a : SampleSet, ((ad.map Addition.shw).toList ++ x :: w :: more).head? ≠ some a.shw := by
    intro ad a
    cases ad with
    | none => exact n1 a
    | some b => intro h; simp at h; exact shw_ne a b h.symm
  have f2 : ∀ h0 : HitSound, tryAll 2 h0 ((ad.map Addition.shw).toList ++ x :: w :: more) = .panic := by
    intro h0
    cases ad with
    | none => exact (all2_none _ n2).trans (fin h0)
    | some b => exact (all2_some _ _ _).trans (fin _)
  cases s with
  | none =>
    rw [h1 rfl]
    simp only [Option.map_none, Option.toList_none, List.nil_append, List.append_assoc, List.singleton_append]
    rw [all0_none _ (n1' ad), f2]
  | some s =>
    simp only [Option.map_some, Option.toList_some, List.singleton_append, List.cons_append, List.append_assoc, List.nil_append]
    rw [all0_some]
    cases a with
    | none =>
      simp only [Option.map_none, Option.toList_none, List.nil_append]
      rw [all1_none _ (n1' ad), f2]
    | some a =>
      simp only [Option.map_some, Option.toList_some, List.singleton_append, List.cons_append, List.nil_append]
      rw [all1_some, f2]

/-! ### Cutting into words -/

variable [UniLib]

theorem fields_wordsOf {r : Str} (hr : r ≠ []) {ws : List Str} : WordsOf r ws ↔ ws = fields r := by
  have aux : ∀ (s b : Str), b ≠ [] → (∀ d ∈ b.tail, UniLib.upperNum d = false) →
      (fieldsAux b s).flatten = b ++ s ∧
      (∀ w ∈ fieldsAux b s, ∃ c t, w = c :: t ∧ ∀ d ∈ t, UniLib.upperNum d = false) ∧
      ∀ w ∈ (fieldsAux b s).tail, ∃ c t, w = c :: t ∧ UniLib.upperNum c = true := by
    intro s
    induction s with
    | nil =>
      intro b hb hb'
      refine ⟨by simp [fieldsAux], ?_, by simp [fieldsAux]⟩
      intro w hw
      simp only [fieldsAux, List.mem_singleton] at hw
      subst hw
      cases w with
      | nil => exact absurd rfl hb
      | cons c t => exact ⟨c, t, rfl, hb'⟩
    | cons c s ih =>
      intro b hb hb'
      rw [fieldsAux]
      split
      · rename_i hc
        obtain ⟨h1, h2, h3⟩ := ih [c] (by simp) (by simp)
        refine ⟨by simp [h1], ?_, ?_⟩
        · intro w hw
          rcases List.mem_cons.1 hw with rfl | hw
          · cases w with
            | nil => exact absurd rfl hb
            | cons c t => exact ⟨c, t, rfl, hb'⟩
          · exact h2 w hw
        · intro w hw
          simp only [List.tail_cons] at hw
          cases hf : fieldsAux [c] s with
          | nil => rw [hf] at hw; cases hw
          | cons f fs =>
            rw [hf] at hw h3 h1 h2
            rcases List.mem_cons.1 hw with rfl | hw
            · obtain ⟨c', t, rfl, -⟩ := h2 w (by simp)
              simp at h1
              exact ⟨c', t, rfl, by rw [h1.1]; exact hc⟩
            · exact h3 w hw
      · rename_i hc
        obtain ⟨h1, h2, h3⟩ := ih (b ++ [c]) (by simp) (by
          cases b with
          | nil => exact absurd rfl hb
          | cons x b =>
            intro d hd
            simp only [List.cons_append, List.tail_cons, List.mem_append, List.mem_singleton] at hd
            rcases hd with hd | rfl
            · exact hb' d hd
            · simpa using hc)
        exact ⟨by simp [h1], h2, h3⟩
  cases r with
  | nil => exact absurd rfl hr
  | cons c r =>
    constructor
    · rintro ⟨h1, h2, h3⟩
      cases ws with
      | nil => cases h1
      | cons w ws =>
        obtain ⟨x, t, rfl, ht⟩ := h2 w (by simp)
        simp only [List.flatten_cons, List.cons_append] at h1
        injection h1 with hx h1
        subst hx
        have hws : ∀ y ∈ ws, Word y := by
          intro y hy
          obtain ⟨a, b, rfl, hab⟩ := h2 y (by simp [hy])
          obtain ⟨a', b', e, ha'⟩ := h3 _ (by simpa using hy)
          injection e with e1 e2
          exact ⟨a, b, rfl, by rw [e1]; exact ha', hab⟩
        rw [fields, ← h1, fieldsAux_append _ _ _ ht, fieldsAux_words _ _ hws]
        rfl
    · rintro rfl
      rw [fields]
      have := aux r [c] (by simp) (by simp)
      exact ⟨this.1, this.2.1, this.2.2⟩

theorem wordsOf_nil {ws : List Str} : WordsOf [] ws ↔ ws = [] := by
  constructor
  · rintro ⟨h1, h2, -⟩
    cases ws with
    | nil => rfl
    | cons w ws =>
      obtain ⟨c, t, rfl, -⟩ := h2 w (by simp)
      simp at h1
  · rintro rfl; exact ⟨rfl, by simp, by simp⟩

theorem hitSound_ok {r : Str} {h : HitSound} : parseHitSound r = .ok h ↔
    ∃ ws, WordsOf r ws ∧ ws.length ≤ 4 ∧ HitSoundWords ws h := by
  unfold parseHitSound
  by_cases hr : r = []
  · subst hr
    rw [if_pos rfl]
    constructor
    · intro e; injection e with e; subst e
      exact ⟨[], wordsOf_nil.2 rfl, by simp, by simp, [], rfl, .inl ⟨rfl, rfl⟩⟩
    · rintro ⟨ws, h1, -, h2⟩
      rw [wordsOf_nil] at h1
      subst h1
      have := words_all h2
      exact this
  · rw [if_neg hr]
    simp only [fields_wordsOf hr]
    constructor
    · intro e
      split at e
      · cases e
      · rename_i hl
        refine ⟨_, rfl, by omega, ?_⟩
        rcases all_split (fields r) with ⟨h', h1, h2⟩ | ⟨_, _, _, _, h1, _⟩ | ⟨_, h1⟩
        · rw [e] at h1; injection h1 with h1; rw [h1]; exact h2
        · rw [e] at h1; cases h1
        · rw [e] at h1; cases h1
    · rintro ⟨ws, rfl, hl, hw⟩
      rw [if_neg (by omega)]
      exact words_all hw

theorem hitSound_panic {r : Str} : parseHitSound r = .panic ↔
    ∃ ws w more h, WordsOf r (ws ++ w :: more) ∧ (ws ++ w :: more).length ≤ 4 ∧ HitSoundWords ws h ∧ h.customSampleSet ≠ none := by
  unfold parseHitSound
  by_cases hr : r = []
  · subst hr
    rw [if_pos rfl]
    constructor
    · intro e; cases e
    · rintro ⟨ws, w, more, h, h1, -⟩
      rw [wordsOf_nil] at h1
      simp at h1
  · rw [if_neg hr]
    simp only [fields_wordsOf hr]
    constructor
    · intro e
      split at e
      · cases e
      · rename_i hl
        rcases all_split (fields r) with ⟨h', h1, h2⟩ | ⟨ws, w, more, h, h1, h2, h3, h4⟩ | ⟨_, h1⟩
        · rw [e] at h1; cases h1
        · exact ⟨ws, w, more, h, h2.symm, by rw [← h2]; omega, h3, h4⟩
        · rw [e] at h1; cases h1
    · rintro ⟨ws, w, more, h, h1, hl, h3, h4⟩
      rw [← h1, if_neg (by omega)]
      exact all_panic h3 h4

omit [UniLib] in
theorem stripPrefix_iff {p s r : Str} : stripPrefix p s = some r ↔ s = p ++ r := by
  unfold stripPrefix
  constructor
  · intro h
    split at h
    · rename_i hp
      rw [List.isPrefixOf_iff_prefix] at hp
      obtain ⟨t, rfl⟩ := hp
      simp at h; rw [h]
    · cases h
  · rintro rfl
    rw [if_pos (by rw [List.isPrefixOf_iff_prefix]; exact List.prefix_append _ _)]
    simp

theorem trigger_reads {s : Str} {t : TriggerType} : parse s = .ok t ↔ TriggerReads s t := by
  unfold parse
  simp only
  by_cases h1 : trim s = c!"Passing"
  · rw [if_pos h1]
    constructor
    · intro h; injection h with h; subst h; exact .passing h1
    · intro h
      cases h with
      | passing => rfl
      | failing h => rw [h1] at h; cases h
      | hitSound h => rw [h1] at h; cases h
  · rw [if_neg h1]
    by_cases h2 : trim s = c!"Failing"
    · rw [if_pos h2]
      constructor
      · intro h; injection h with h; subst h; exact .failing h2
      · intro h
        cases h with
        | passing h => exact absurd h h1
        | failing h => rfl
        | hitSound h => rw [h2] at h; cases h
    · rw [if_neg h2]
      cases hs : stripPrefix c!"HitSound" (trim s) with
      | none =>
        simp only
        constructor
        · intro h; cases h
        · intro h
          cases h with
          | passing h => exact absurd h h1
          | failing h => exact absurd h h2
          | hitSound h => rw [stripPrefix_iff.2 h] at hs; cases hs
      | some r =>
        simp only
        have hs' := stripPrefix_iff.1 hs
        constructor
        · intro h
          cases hp : parseHitSound r with
          | ok x =>
            rw [hp] at h; injection h with h; subst h
            obtain ⟨ws, a, b, c⟩ := hitSound_ok.1 hp
            exact .hitSound hs' a b c
          | err e => rw [hp] at h; cases h
          | panic => rw [hp] at h; cases h
        · intro h
          cases h with
          | passing h => exact absurd h h1
          | failing h => exact absurd h h2
          | hitSound h a b c =>
            rw [hs'] at h
            have := List.append_cancel_left h
            subst this
            rw [hitSound_ok.2 ⟨_, a, b, c⟩]

theorem trigger_panics {s : Str} : parse s = .panic ↔ TriggerPanics s := by
  unfold parse TriggerPanics
  simp only
  by_cases h1 : trim s = c!"Passing"
  · rw [if_pos h1]
    constructor
    · intro h; cases h
    · rintro ⟨r, _, _, _, _, h, -⟩; rw [h1] at h; cases h
  · rw [if_neg h1]
    by_cases h2 : trim s = c!"Failing"
    · rw [if_pos h2]
      constructor
      · intro h; cases h
      · rintro ⟨r, _, _, _, _, h, -⟩; rw [h2] at h; cases h
    · rw [if_neg h2]
      cases hs : stripPrefix c!"HitSound" (trim s) with
      | none =>
        simp only
        constructor
        · intro h; cases h
        · rintro ⟨r, _, _, _, _, h, -⟩; rw [stripPrefix_iff.2 h] at hs; cases hs
      | some r =>
        simp only
        have hs' := stripPrefix_iff.1 hs
        constructor
        · intro h
          cases hp : parseHitSound r with
          | ok x => rw [hp] at h; cases h
          | err e => rw [hp] at h; cases h
          | panic =>
            obtain ⟨ws, w, more, hh, a, b, c, d⟩ := hitSound_panic.1 hp
            exact ⟨r, ws, w, more, hh, hs', a, b, c, d⟩
        · rintro ⟨r', ws, w, more, hh, h, a, b, c, d⟩
          rw [hs'] at h
          have := List.append_cancel_left h
          subst this
          rw [hitSound_panic.2 ⟨ws, w, more, hh, a, b, c, d⟩]

end TriggerType
end SB
end Osu
