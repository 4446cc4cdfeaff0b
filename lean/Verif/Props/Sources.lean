/-
C76: which errors have a cause (`std::error::Error::source`).
-/
import Verif.Model.Sources
import Verif.Props.MessagesKV
import Verif.Proof.Messages

namespace Osu
open Parser

/-! ## Specification -/

/-- In line `n` of the text `s` of a `General` section stands the value `x`, the first one of its key; before it are only
entries that are read. -/
def ValueAt {S : Schema} (v : Nat) (s : Str) (n : Nat) (k : S.Key) (x : Str) : Prop :=
  ∃ pre e post r, KVSplits s (pre ++ e :: post) r ∧ Blank r ∧ S.Accepts v pre ∧ n = kvCount pre ∧
    (∀ e' ∈ pre, e'.1.key ≠ e.1.key) ∧ e.1.key = S.name k ∧ e.1.value = x

/-! ## Values -/

section
variable {D : Type} [DecLib D]

theorem FieldErr.source_some {e : FieldErr} {i : IntErr} : e.source = some i ↔ e = .countdownInt i := by
  cases e with
  | zeroOne e => cases e <;> simp [FieldErr.source, ZeroOneErr.source, IntErr.source]
  | _ => simp [FieldErr.source, IntErr.source]

theorem KVErr.source_some {e : KVErr FieldErr} {i : IntErr} : e.source = some i ↔ e = .field (.countdownInt i) := by
  cases e <;> simp [KVErr.source, FieldErr.source_some]

theorem IntErr.msg_inj {a b : IntErr} : a.msg = b.msg → a = b :=
  inj_of_find [.empty, .invalidDigit, .posOverflow, .negOverflow] IntErr.msg (fun e => by cases e <;> decide)

theorem ZeroOneErr.msg_inj {a b : ZeroOneErr} : a.msg = b.msg → a = b :=
  inj_of_find [.invalidValue, .parseInt .empty, .parseInt .invalidDigit, .parseInt .posOverflow, .parseInt .negOverflow]
    ZeroOneErr.msg (fun e => by rcases e with ⟨⟨⟩⟩ | _ <;> decide)

/-- The kinds of errors for the values of a key of `General`. -/
def GKey.kindOK : GKey → FieldErr → Bool
  | .audioLeadIn, .parseInt _ | .previewTime, .parseInt _ | .countdownOffset, .parseInt _ | .editorBookmarks, .parseInt _ => true
  | .editorBookmarks, .invalidCommaList => true
  | .countdown, .countdownUnknown | .countdown, .countdownInt _ => true
  | .mode, .modeUnknown | .mode, .modeInt _ => true
  | .sampleSet, .sampleSetUnknown | .overlayPosition, .overlayUnknown => true
  | .letterboxInBreaks, .zeroOne _ | .storyFireInFront, .zeroOne _ | .useSkinSprites, .zeroOne _ | .alwaysShowPlayfield, .zeroOne _
  | .epilepsyWarning, .zeroOne _ | .specialStyle, .zeroOne _ | .widescreenStoryboard, .zeroOne _
  | .samplesMatchPlaybackRate, .zeroOne _ => true
  | _, _ => false

theorem GKey.kind {v : Nat} {k : GKey} {s : Str} {e : FieldErr} (h : (GKey.parse k v s : Res _ (Option (k.Val D))) = .err e) :
    k.kindOK e = true := by
  have hi : ∀ {e}, intField s = .err e → ∃ i, e = .parseInt i := by
    intro e h
    unfold intField at h
    cases hp : parseI32 s <;> rw [hp] at h <;> cases h
    exact ⟨_, rfl⟩
  have hb : ∀ {e}, boolField s = .err e → ∃ i, e = .zeroOne i := by
    intro e h
    unfold boolField at h
    cases hp : parseZeroOneBool s <;> rw [hp] at h <;> cases h
    exact ⟨_, rfl⟩
  cases k <;> simp only [GKey.parse] at h
  all_goals first
    | (obtain ⟨i, rfl⟩ := hi h; rfl)
    | (obtain ⟨i, rfl⟩ := hb h; rfl)
    | (cases h; done)
    | skip
  · unfold Countdown.parse at h
    repeat' split at h
    all_goals cases h
    all_goals rfl
  · unfold GSampleSet.parse at h
    repeat' split at h
    all_goals cases h
    rfl
  · unfold Mode.parse at h
    dsimp only at h
    repeat' split at h
    all_goals cases h
    all_goals rfl
  · unfold OverlayPosition.parse at h
    repeat' split at h
    all_goals cases h
    rfl
  · cases hp : parseBookmarks s with
    | ok l => rw [hp] at h; cases h
    | panic => rw [hp] at h; cases h
    | err e' =>
      rw [hp] at h
      cases h
      obtain ⟨ps, b, bs, ie, -, -, -, rfl⟩ := C08_bookmarks_error s e hp
      split <;> rfl

/-- A refused value of `General` has a cause exactly if it is a `Countdown` that is no number, in a version that reads it; the
cause says what is wrong with the number. -/
theorem C76_general_value (v : Nat) (k : GKey) (s m : Str) :
    (∃ e i, (GKey.parse k v s : Res _ (Option (k.Val D))) = .err e ∧ e.source = some i ∧ i.msg = m) ↔
      k = .countdown ∧ ¬(3 ≤ v ∧ v ≤ 4) ∧ usizeSays s = some m := by
  constructor
  · rintro ⟨e, i, h, hs, rfl⟩
    obtain rfl := FieldErr.source_some.1 hs
    have hk := GKey.kind h
    obtain rfl : k = .countdown := by
      cases k <;> first | rfl | cases hk
    simp only [GKey.parse, Countdown.parse] at h
    by_cases hv : 3 ≤ v ∧ v ≤ 4
    · rw [if_pos hv] at h; cases h
    · rw [if_neg hv] at h
      refine ⟨rfl, hv, (C74_number s _).2.1 ⟨i, ?_, rfl⟩⟩
      cases hp : parseUsize s <;> rw [hp] at h <;> dsimp only at h
      · repeat' split at h
        all_goals cases h
      · cases h; rfl
      · cases h
  · rintro ⟨rfl, hv, hm⟩
    obtain ⟨e, he, hm⟩ := (C74_number s m).2.2 hm
    refine ⟨.countdownInt e, e, ?_, rfl, hm⟩
    simp only [GKey.parse, Countdown.parse]
    rw [if_neg hv, he]

example : usizeSays c!"x" = some c!"invalid digit found in string" :=
  ((C76_general_value (D := Dec96) 14 .countdown _ _).1 ⟨_, _, by rfl, by rfl, by rfl⟩).2.2

/-- Text and cause together say which error it is, for the values of one key. (The text alone does not:
`C66_false_distinct`.) -/
theorem C76_general_distinct (v w : Nat) (k : GKey) (s t : Str) (a b : FieldErr)
    (ha : (GKey.parse k v s : Res _ (Option (k.Val D))) = .err a) (hb : (GKey.parse k w t : Res _ (Option (k.Val D))) = .err b)
    (hm : a.msg = b.msg) (hc : a.source.map IntErr.msg = b.source.map IntErr.msg) : a = b := by
  have hk := GKey.kind ha
  have hk' := GKey.kind hb
  clear ha hb
  cases a <;> cases k <;> first | cases hk | skip
  all_goals cases b <;> first | cases hk' | skip
  all_goals first
    | rfl
    | exact congrArg _ (IntErr.msg_inj hm)
    | exact congrArg _ (ZeroOneErr.msg_inj hm)
    | exact congrArg _ (IntErr.msg_inj (Option.some.inj hc))
    | (revert hm; cases ‹IntErr› <;> decide)
    | skip

/-! ## Sections -/

/-- An error in `General` has a cause exactly if it is about such a value. -/
theorem C76_general (v : Nat) (s : Str) (n : Nat) (m : Str) :
    (∃ e i, (General D).fromStr v s = .err ⟨n, e⟩ ∧ e.source = some i ∧ i.msg = m) ↔
      ¬(3 ≤ v ∧ v ≤ 4) ∧ ∃ x, ValueAt (S := General D) v s n GKey.countdown x ∧ usizeSays x = some m := by
  constructor
  · rintro ⟨e, i, h, hs, rfl⟩
    obtain rfl := KVErr.source_some.1 hs
    obtain ⟨pre, e, post, r, h1, h2, h3, h4, h5, k, hk, hp⟩ := (C06_any_text_bad_value (General_lawful D) v s n _).1 h
    obtain ⟨rfl, hv, hu⟩ := (C76_general_value (D := D) v k e.1.value i.msg).1 ⟨_, i, hp, rfl, rfl⟩
    exact ⟨hv, _, ⟨pre, e, post, r, h1, h2, h3, h4, h5, hk.symm, rfl⟩, hu⟩
  · rintro ⟨hv, x, ⟨pre, e, post, r, h1, h2, h3, h4, h5, hk, rfl⟩, hu⟩
    obtain ⟨e', i, hp, hs, hm⟩ := (C76_general_value (D := D) v .countdown e.1.value m).2 ⟨rfl, hv, hu⟩
    exact ⟨.field e', i, (C06_any_text_bad_value (General_lawful D) v s n e').2 ⟨pre, e, post, r, h1, h2, h3, h4, h5, _, hk.symm, hp⟩,
      hs, hm⟩

theorem EKey.noCountdown {v : Nat} {k : EKey} {s : Str} {i : IntErr}
    (h : (EKey.parse k v s : Res _ (Option (k.Val D))) = .err (.countdownInt i)) : False := by
  cases k <;> simp only [EKey.parse] at h
  all_goals first
    | (cases h; done)
    | (unfold intField at h; cases hp : parseI32 s <;> rw [hp] at h <;> cases h; done)
    | skip
  cases hp : parseBookmarks s with
  | ok l => rw [hp] at h; cases h
  | panic => rw [hp] at h; cases h
  | err e' =>
    rw [hp] at h
    cases h
    obtain ⟨ps, b, bs, ie, -, -, -, he⟩ := C08_bookmarks_error s _ hp
    split at he <;> cases he

theorem MKey.noErr {v : Nat} {k : MKey} {s : Str} {e : FieldErr} (h : MKey.parse k v s = .err e) : False := by
  revert h
  unfold MKey.parse
  split <;> intro h
  case h_8 =>
    rw [parseTags_eq] at h
    cases h
  all_goals first
    | cases h
    | (unfold idField at h; split at h <;> cases h)

/-- An error in one of the other sections with keys has none. -/
theorem C76_other_keys (v : Nat) (s : Str) (n : Nat) (e : KVErr FieldErr)
    (h : (Editor D).fromStr v s = .err ⟨n, e⟩ ∨ Metadata.fromStr v s = .err ⟨n, e⟩ ∨ (Difficulty D).fromStr v s = .err ⟨n, e⟩) : e.source = none := by
  cases hs : e.source with
  | none => rfl
  | some i =>
    obtain rfl := KVErr.source_some.1 hs
    rcases h with h | h | h
    · obtain ⟨pre, e, post, r, h1, h2, h3, h4, h5, k, hk, hp⟩ := (C06_any_text_bad_value (Editor_lawful D) v s n _).1 h
      exact (EKey.noCountdown hp).elim
    · obtain ⟨pre, e, post, r, h1, h2, h3, h4, h5, k, hk, hp⟩ := (C06_any_text_bad_value Metadata_lawful v s n _).1 h
      exact (MKey.noErr hp).elim
    · obtain ⟨pre, e, post, r, h1, h2, h3, h4, h5, k, hk, hp⟩ := (C06_any_text_bad_value (Difficulty_lawful D) v s n _).1 h
      cases hp

end

section
variable {D : Type} [DecLib D] [UniLib]

theorem outcome_source {v : Nat} {b : Str} {nm : SName} {e : LErr FileErr} {i : IntErr} (h : nm.outcome D v b = .err e)
    (hs : e.error.source = some i) : nm = .general ∧ ∃ k y, ¬(3 ≤ v ∧ v ≤ 4) ∧ ValueAt (S := General D) v b k GKey.countdown y ∧
      usizeSays y = some i.msg ∧ e.line = k := by
  have key : ∀ {E α : Type} {into : E → FileErr} {x : Res (LErr E) α},
      (processingLine into x 0 >>= fun _ => (.ok () : Res (LErr FileErr) Unit)) = .err e →
        ∃ e', x = .err ⟨e.line, e'⟩ ∧ e.error = into e' := by
    intro E α into x h
    cases x with
    | ok => cases h
    | panic => cases h
    | err e' => cases h; exact ⟨_, rfl, rfl⟩
  cases nm <;> simp only [SName.outcome] at h <;> obtain ⟨e', he, h'⟩ := key h <;> rw [h'] at hs
  · obtain ⟨hv, y, hy, hu⟩ := (C76_general (D := D) v b e.line i.msg).1 ⟨e', i, he, hs, rfl⟩
    exact ⟨rfl, _, y, hv, hy, hu, rfl⟩
  · rw [show FileErr.source (.editor e') = e'.source from rfl, C76_other_keys (D := D) v b _ e' (.inl he)] at hs; cases hs
  · rw [show FileErr.source (.metadata e') = e'.source from rfl, C76_other_keys (D := D) v b _ e' (.inr (.inl he))] at hs; cases hs
  · rw [show FileErr.source (.difficulty e') = e'.source from rfl, C76_other_keys (D := D) v b _ e' (.inr (.inr he))] at hs
    cases hs
  · cases e' <;> cases hs
  · cases e' <;> cases hs
  · cases e' <;> cases hs
  · cases e' <;> cases hs

/-- The error for a file has a cause exactly if, after sections that are read, there is a `General` section in which the first
fault is a `Countdown` that is no number, and the version is at least 5; the cause says what is wrong with the number. -/
theorem C76_file (s : Str) (n : Nat) (m : Str) :
    (∃ e i, (OsuFile.parse s : Res _ (OsuFile D)) = .err e ∧ e.line = n ∧ e.source FileErr.source = some i ∧ i.msg = m) ↔
      ∃ ws num r v pre p x q rest k y, Versioned s ws num r ∧ KnownVersion num v ∧ Layout r pre (p ++ x :: q) rest ∧
        (∀ l ∈ pre, Ignorable l) ∧ AllRead D v p ∧ x.name = c!"General" ∧ x.name ∉ p.map Sect.name ∧ 5 ≤ v ∧
        ValueAt (S := General D) v x.body k GKey.countdown y ∧ usizeSays y = some m ∧
        n = k + bodyLine ((lines ws).length + pre.length) p x := by
  constructor
  · rintro ⟨⟨n', e⟩, i, h, rfl, hs, rfl⟩
    by_cases hv : ∃ ws num r, Versioned s ws num r
    · obtain ⟨ws, num, r, hv⟩ := hv
      by_cases hk : ∃ v, KnownVersion num v
      · obtain ⟨v, hk⟩ := hk
        obtain ⟨pre, xs, rest, hl⟩ := layout_exists r
        by_cases hp : ∀ l ∈ pre, Ignorable l
        · obtain ⟨p, x, q, rfl, hr, hs'⟩ := (C46_outcome hv hk hl hp rfl).1 h
          rcases hs' with ⟨-, h⟩ | ⟨-, -, h⟩ | ⟨h1, nm, hn, ⟨e', h2, h⟩ | ⟨-, h⟩ | ⟨-, -, h⟩⟩
          · cases h; cases hs
          · cases h; cases hs
          · cases h
            obtain ⟨rfl, k, y, hv5, hy, hu, hk'⟩ := outcome_source h2 hs
            refine ⟨ws, num, r, v, pre, p, x, q, rest, k, y, hv, hk, hl, hp, hr, hn.symm, h1, ?_, hy, hu, ?_⟩
            · have := hk.2; omega
            · rw [hk']
          · cases h
          · cases h
        · have : ∃ k, preBad 0 pre = some k := by
            cases hb : preBad 0 pre with
            | none => exact absurd (preBad_none.1 hb) hp
            | some k => exact ⟨k, rfl⟩
          obtain ⟨k, hk'⟩ := this
          obtain ⟨a, l, b, rfl, -, h1, h2⟩ := preBad_some.1 hk'
          rw [parse_versioned hv hk, parseRest_bad hl h1 h2] at h
          cases h; cases hs
      · rw [parse_badVersion hv hk] at h; cases h; cases hs
    · rw [parse_unversioned hv] at h; cases h; cases hs
  · rintro ⟨ws, num, r, v, pre, p, x, q, rest, k, y, hv, hk, hl, hp, hr, hn, h1, h5, hy, hu, rfl⟩
    obtain ⟨e, i, he, hs, hm⟩ := (C76_general (D := D) v x.body k m).2 ⟨by omega, y, hy, hu⟩
    refine ⟨⟨k + bodyLine ((lines ws).length + pre.length) p x, .general e⟩, i, ?_, rfl, hs, hm⟩
    refine (C46_outcome hv hk hl hp rfl).2 ⟨p, x, q, rfl, hr, .inr (.inr ⟨h1, .general, hn.symm, .inl ⟨⟨k, .general e⟩, ?_, rfl⟩⟩)⟩
    simp only [SName.outcome, he]
    rfl

example : ∃ e i, (OsuFile.parse c!"osu file format v14\n[General]\nCountdown: x" : Res _ (OsuFile Dec96)) = .err e ∧
    e.source FileErr.source = some i ∧ i.msg = c!"invalid digit found in string" := ⟨_, _, by rfl, by rfl, by rfl⟩

/-- The error for a storyboard file has none. -/
theorem C76_osb (f : OsuFile D) (s : Str) (e : LErr OsbErr) (h : (f.appendOsb s).2 = .err e) : e.source OsbErr.source = none := by
  obtain ⟨n, e⟩ := e
  cases e <;> rfl

end

attribute [local instance] asciiUni

/-- The text of these errors is the same, their causes are not. -/
theorem C76_says_more : ∃ s t : Str, ∃ e e' : LErr FileErr, (OsuFile.parse s : Res _ (OsuFile Dec96)) = .err e ∧
    (OsuFile.parse t : Res _ (OsuFile Dec96)) = .err e' ∧ e.shw FileErr.msg = e'.shw FileErr.msg ∧
    (e.source FileErr.source).map IntErr.msg = some c!"invalid digit found in string" ∧
    (e'.source FileErr.source).map IntErr.msg = some c!"cannot parse integer from empty string" :=
  ⟨c!"osu file format v14\n\n[General]\nCountdown: x", c!"osu file format v14\n\n[General]\nCountdown:", ⟨3, .general (.field (.countdownInt .invalidDigit))⟩,
    ⟨3, .general (.field (.countdownInt .empty))⟩, by rfl, by rfl, rfl, rfl, rfl⟩

example : ∃ n y, ValueAt (S := General Dec96) 14 c!"Mode: 1\nCountdown: 1x\nMode: 2" n GKey.countdown y ∧
    usizeSays y = some c!"invalid digit found in string" := by
  obtain ⟨-, y, h⟩ := (C76_general (D := Dec96) 14 c!"Mode: 1\nCountdown: 1x\nMode: 2" 1 c!"invalid digit found in string").1
    ⟨.field (.countdownInt .invalidDigit), .invalidDigit, by rfl, rfl, rfl⟩
  exact ⟨1, y, h⟩
example : (GKey.parse .mode 14 c!"x" : Res _ (Option (GKey.mode.Val Dec96))) = .err (.modeInt .invalidDigit) ∧
    FieldErr.source (.modeInt .invalidDigit) = none := ⟨rfl, rfl⟩
example : Metadata.fromStr 14 c!"Title" = .err ⟨0, .invalidColonSet⟩ := by rfl
example : ∃ e, ((OsuFile.new 14 : OsuFile Dec96).appendOsb c!"[Variables]\na").2 = .err e := ⟨⟨1, .variable .missingHeader⟩, by rfl⟩

section
attribute [local instance] asciiUni

example : FieldErr.modeInt .invalidDigit = .modeInt .invalidDigit :=
  C76_general_distinct (D := Dec96) 14 3 .mode c!"x" c!"1y" _ _ (by rfl) (by rfl) rfl rfl
example : (KVErr.invalidColonSet : KVErr FieldErr).source = none :=
  C76_other_keys (D := Dec96) 14 c!"Title" 0 _ (.inr (.inl (by rfl)))
example : (⟨1, .variable .missingHeader⟩ : LErr OsbErr).source OsbErr.source = none :=
  C76_osb (OsuFile.new 14 : OsuFile Dec96) c!"[Variables]\na" _ (by rfl)

end

end Osu
