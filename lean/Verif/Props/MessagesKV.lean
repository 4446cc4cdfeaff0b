/-
C74: what the text of an error in a key/value section says.
-/
import Verif.Spec.MessagesKV
import Verif.Model.Messages
import Verif.Props.Sections
import Verif.Props.File
import Verif.Proof.Osb

namespace Osu
open Parser

/-! ## Numbers -/

theorem parseDigits_err (ov : IntErr) (max : Nat) (s : Str) : ∀ acc, acc ≤ max →
    (parseDigits ov max acc s).toErr =
      if max < (s.takeWhile isDig).foldl (fun a c => a * 10 + (c.toNat - 48)) acc then some ov
      else if s.dropWhile isDig ≠ [] then some .invalidDigit else none := by
  induction s with
  | nil => intro acc h; simp [parseDigits, Res.toErr, Nat.not_lt.2 h]
  | cons c s ih =>
    intro acc h
    rw [parseDigits]
    by_cases hc : 48 ≤ c.toNat ∧ c.toNat ≤ 57
    · have hd : digitVal c = some (c.toNat - 48) := by unfold digitVal; rw [if_pos hc]
      have hdig : isDig c = true := by simp [isDig, hd]
      simp only [hd, List.takeWhile_cons, hdig, if_true, List.dropWhile_cons, List.foldl_cons]
      split
      · rename_i hlt
        rw [if_pos (Nat.lt_of_lt_of_le hlt (decVal_foldl_le _ _))]
        rfl
      · rename_i hlt
        exact ih _ (by omega)
    · have hd : digitVal c = none := by unfold digitVal; rw [if_neg hc]
      have hdig : isDig c = false := by simp [isDig, hd]
      simp [hd, hdig, Res.toErr, Nat.not_lt.2 h]

theorem digitsSay_eq {ov : IntErr} (max : Nat) {t : Str} (ht : t ≠ []) :
    digitsSay max ov.msg t = (parseDigits ov max 0 t).toErr.map IntErr.msg := by
  rw [parseDigits_err _ _ _ _ (Nat.zero_le _)]
  unfold digitsSay decVal
  split
  · rfl
  · by_cases h : t.dropWhile isDig ≠ []
    · rw [if_pos (.inr h), if_pos h]; rfl
    · rw [if_neg (fun e => e.elim ht h), if_neg h]; rfl

theorem Res.toErr_bind_ok {ε α β : Type} (r : Res ε α) (f : α → β) : (r.bind fun a => .ok (f a)).toErr = r.toErr := by
  cases r <;> rfl

theorem signedSays_eq (max : Nat) (s : Str) : signedSays max s = (parseSigned max s).toErr.map IntErr.msg := by
  cases s with
  | nil => rfl
  | cons c r =>
    unfold parseSigned
    dsimp only
    by_cases hr : (c = '+' ∨ c = '-') ∧ r = []
    · obtain ⟨h, rfl⟩ := hr
      rw [if_pos ⟨h, rfl⟩]
      rcases h with rfl | rfl <;> simp [signedSays, digitsSay, decVal, Res.toErr, IntErr.msg]
    · rw [if_neg hr]
      by_cases hp : c = '+'
      · subst hp
        have hrn : r ≠ [] := fun e => hr ⟨.inl rfl, e⟩
        rw [if_pos rfl, Res.toErr_bind_ok]
        exact digitsSay_eq (ov := .posOverflow) max hrn
      · rw [if_neg hp]
        by_cases hm : c = '-'
        · subst hm
          have hrn : r ≠ [] := fun e => hr ⟨.inr rfl, e⟩
          rw [if_pos rfl, Res.toErr_bind_ok]
          exact digitsSay_eq (ov := .negOverflow) (max + 1) hrn
        · rw [if_neg hm, Res.toErr_bind_ok]
          have : signedSays max (c :: r) = digitsSay max IntErr.posOverflow.msg (c :: r) := by
            unfold signedSays
            split
            · rename_i e; cases e
            · rename_i e; cases e; exact absurd rfl hp
            · rename_i e; cases e; exact absurd rfl hm
            · rfl
          rw [this]
          exact digitsSay_eq (ov := .posOverflow) max (by simp)

theorem unsignedSays_eq (max : Nat) (s : Str) : unsignedSays max s = (parseUnsigned max s).toErr.map IntErr.msg := by
  cases s with
  | nil => rfl
  | cons c r =>
    unfold parseUnsigned
    dsimp only
    by_cases hr : (c = '+' ∨ c = '-') ∧ r = []
    · obtain ⟨h, rfl⟩ := hr
      rw [if_pos ⟨h, rfl⟩]
      rcases h with rfl | rfl <;> simp [unsignedSays, digitsSay, decVal, Res.toErr, IntErr.msg, isDig, digitVal]
    · rw [if_neg hr]
      by_cases hp : c = '+'
      · subst hp
        have hrn : r ≠ [] := fun e => hr ⟨.inl rfl, e⟩
        rw [if_pos rfl]
        exact digitsSay_eq (ov := .posOverflow) max hrn
      · rw [if_neg hp]
        have : unsignedSays max (c :: r) = digitsSay max IntErr.posOverflow.msg (c :: r) := by
          unfold unsignedSays
          split
          · rename_i e; cases e
          · rename_i e; cases e; exact absurd rfl hp
          · rfl
        rw [this]
        exact digitsSay_eq (ov := .posOverflow) max (by simp)

theorem i32Says_eq (s : Str) : i32Says s = (parseI32 s).toErr.map IntErr.msg := by
  unfold i32Says parseI32
  rw [Res.toErr_bind_ok]
  exact signedSays_eq _ s

theorem usizeSays_eq (s : Str) : usizeSays s = (parseUsize s).toErr.map IntErr.msg := by
  unfold usizeSays parseUsize
  rw [Res.toErr_bind_ok]
  exact unsignedSays_eq _ s

/-- The text of the error for a number: too large or too small as soon as the leading digits are, otherwise about a character
that is no digit, or about nothing being there. -/
theorem C74_number (s m : Str) :
    ((∃ e, parseI32 s = .err e ∧ e.msg = m) ↔ i32Says s = some m) ∧
    ((∃ e, parseUsize s = .err e ∧ e.msg = m) ↔ usizeSays s = some m) := by
  rw [i32Says_eq, usizeSays_eq]
  constructor
  · cases parseI32 s <;> simp [Res.toErr]
  · cases parseUsize s <;> simp [Res.toErr]

example : i32Says c!"2147483648x" = some c!"number too large to fit in target type" ∧
    i32Says c!"2147483647x" = some c!"invalid digit found in string" ∧
    i32Says c!"-2147483649" = some c!"number too small to fit in target type" ∧ i32Says c!"-2147483648" = none ∧
    usizeSays c!"-1" = some c!"invalid digit found in string" := by decide

/-! ## Values -/

theorem numeral_val {s : Str} {n : Int} (h : IsNumeral s n) : numVal s = n := by
  obtain ⟨ds, hne, hd, ⟨rfl, rfl⟩ | ⟨rfl, rfl⟩ | ⟨rfl, rfl⟩⟩ := h
  · unfold numVal
    split
    · exact absurd hd.of_cons.1 (by decide)
    · exact absurd hd.of_cons.1 (by decide)
    · rfl
  · rfl
  · rfl

theorem i32_val {s : Str} {n : Int32} (h : parseI32 s = .ok n) : numVal s = n.toInt := numeral_val ((C01_i32_accepts s n).1 h)

theorem usize_val {s : Str} {n : UInt64} (h : parseUsize s = .ok n) : numVal s = n.toNat := by
  obtain ⟨ds, h1, h2, h3⟩ := (C01_usize_accepts s n).1 h
  refine numeral_val ⟨ds, h1, h2, ?_⟩
  rcases h3 with ⟨e, h3⟩ | ⟨e, h3⟩
  · exact .inl ⟨e, by rw [h3]⟩
  · exact .inr (.inl ⟨e, by rw [h3]⟩)

theorem zeroOneSays_eq (s : Str) : zeroOneSays s = (boolField s).toErr.map FieldErr.msg := by
  unfold zeroOneSays boolField parseZeroOneBool choiceSays
  rw [i32Says_eq]
  cases h : parseI32 s with
  | err e => rfl
  | panic => exact absurd h (parseI32_no_panic s)
  | ok n =>
    have hn := i32_val h
    have e0 : n.toInt = 0 ↔ n = 0 := by rw [← Int32.toInt_inj]; rfl
    have e1 : n.toInt = 1 ↔ n = 1 := by rw [← Int32.toInt_inj]; rfl
    simp only [Res.toErr, Option.map_none, hn, e0, e1]
    by_cases h0 : n = 0
    · simp [h0, Res.mapErr, Res.toErr, Bind.bind, Res.bind]
    · by_cases h1 : n = 1
      · simp [h1, Res.mapErr, Res.toErr, Bind.bind, Res.bind]
      · simp [h0, h1, Res.mapErr, Res.toErr, Bind.bind, Res.bind, FieldErr.msg, ZeroOneErr.msg]

theorem intSays_eq (s : Str) : i32Says s = (intField s).toErr.map FieldErr.msg := by
  rw [i32Says_eq]
  unfold intField
  cases parseI32 s <;> rfl

theorem findSome_split {α β : Type} (f : α → Option β) (ps : List α) (b : α) (bs : List α) (h : ∀ p ∈ ps, f p = none) :
    (ps ++ b :: bs).findSome? f = (b :: bs).findSome? f := by
  induction ps with
  | nil => rfl
  | cons p ps ih =>
    rw [List.cons_append, List.findSome?_cons, h p (by simp)]
    exact ih fun q hq => h q (by simp [hq])

theorem okInts {as : List Int32} {ps : List Str} (h : ps.map parseI32 = as.map .ok) : ∀ p ∈ ps, ∃ n, parseI32 p = .ok n := by
  intro p hp
  have : parseI32 p ∈ as.map Res.ok := by rw [← h]; exact List.mem_map_of_mem hp
  obtain ⟨n, -, e⟩ := List.mem_map.1 this
  exact ⟨n, e.symm⟩

theorem i32_empty {s : Str} (h : parseI32 s = .err .empty) : s = [] := by
  cases s with
  | nil => rfl
  | cons c r =>
    exfalso
    have h' : (parseSigned 2147483647 (c :: r)).toErr = some .empty := by
      rw [← Res.toErr_bind_ok _ Int32.ofInt]
      exact congrArg Res.toErr h
    unfold parseSigned at h'
    dsimp only at h'
    have key : ∀ ov max t, ov ≠ IntErr.empty → (parseDigits ov max 0 t).toErr ≠ some .empty := by
      intro ov max t ho e
      rw [parseDigits_err _ _ _ _ (Nat.zero_le _)] at e
      split at e
      · exact ho (Option.some.inj e)
      · split at e <;> cases e
    split at h'
    · cases h'
    · split at h'
      · rw [Res.toErr_bind_ok] at h'; exact key _ _ _ (by decide) h'
      · split at h'
        · rw [Res.toErr_bind_ok] at h'; exact key _ _ _ (by decide) h'
        · rw [Res.toErr_bind_ok] at h'; exact key _ _ _ (by decide) h'

theorem marksSay_eq (s : Str) : marksSay s = (parseBookmarks s).toErr.map FieldErr.msg := by
  have hok : ∀ p n, parseI32 p = .ok n → (if p = [] then some c!"Invalid comma list, expected format of `key: value, value, value, ...`" else i32Says p) = none := by
    intro p n h
    rw [if_neg (by rintro rfl; cases h), i32Says_eq, h]; rfl
  unfold marksSay
  rcases parseBookmarks_spec s with ⟨rfl, h⟩ | ⟨as, ha, h⟩ | ⟨hne, ps, b, bs, as, e, h1, h2, h3, h⟩
  · rw [h]; rfl
  · rw [h]
    show _ = none
    split
    · rfl
    · rw [List.findSome?_eq_none_iff]
      intro p hp
      obtain ⟨n, hn⟩ := okInts ha p hp
      exact hok p n hn
  · rw [h, if_neg hne, h1, findSome_split _ _ _ _ fun p hp => by obtain ⟨n, hn⟩ := okInts h2 p hp; exact hok p n hn, List.findSome?_cons]
    by_cases hb : b = []
    · subst hb
      cases h3
      rfl
    · have he : e ≠ .empty := by
        rintro rfl
        exact hb (i32_empty h3)
      rw [if_neg hb, i32Says_eq, h3, if_neg he]
      rfl

theorem Res.toErr_some {ε α : Type} (r : Res ε α) : (r >>= fun l => .ok (some l)).toErr = r.toErr := by
  cases r <;> rfl

section
variable {D : Type} [DecLib D]

theorem four (n : UInt64) : (n.toNat : Int) ≤ 3 ↔ n = 0 ∨ n = 1 ∨ n = 2 ∨ n = 3 := by
  simp only [← UInt64.toNat_inj]
  have h0 : (0 : UInt64).toNat = 0 := rfl
  have h1 : (1 : UInt64).toNat = 1 := rfl
  have h2 : (2 : UInt64).toNat = 2 := rfl
  have h3 : (3 : UInt64).toNat = 3 := rfl
  omega

theorem generalSays_eq (v : Nat) (k : GKey) (s : Str) :
    generalSays v k s = (GKey.parse k v s : Res _ (Option (k.Val D))).toErr.map FieldErr.msg := by
  cases k with
  | audioFilename | audioHash | skinPreference | stackLeniency | editorDistanceSpacing => rfl
  | audioLeadIn | previewTime | countdownOffset => exact intSays_eq s
  | letterboxInBreaks | storyFireInFront | useSkinSprites | alwaysShowPlayfield | epilepsyWarning | specialStyle
  | widescreenStoryboard | samplesMatchPlaybackRate => exact zeroOneSays_eq s
  | editorBookmarks =>
    simp only [GKey.parse, generalSays]
    rw [Res.toErr_some, marksSay_eq]
  | countdown =>
    simp only [GKey.parse, generalSays, Countdown.parse]
    by_cases hv : 3 ≤ v ∧ v ≤ 4
    · rw [if_pos hv, if_pos hv]; rfl
    · rw [if_neg hv, if_neg hv, usizeSays_eq]
      cases h : parseUsize s with
      | err e => rfl
      | panic => exact absurd h (parseUsize_no_panic s)
      | ok n =>
        have hn := usize_val h
        have hc := four n
        unfold choiceSays Countdown.fromRepr
        simp only [Res.toErr, Option.map_none, hn, hc, hv, if_false]
        by_cases h0 : n = 0
        · simp [h0]
        by_cases h1 : n = 1
        · simp [h1]
        by_cases h2 : n = 2
        · simp [h2]
        by_cases h3 : n = 3
        · simp [h3]
        simp [h0, h1, h2, h3, FieldErr.msg]
  | mode =>
    simp only [GKey.parse, generalSays, Mode.parse]
    rw [usizeSays_eq]
    cases h : parseUsize s with
    | err e => rfl
    | panic => exact absurd h (parseUsize_no_panic s)
    | ok n =>
      have hn := usize_val h
      have hc := four n
      unfold choiceSays
      have hok : (Res.ok n : Res IntErr UInt64).toErr = none := rfl
      have hs : ∀ m : Mode, (if 3 ≤ v ∧ v ≤ 4 ∧ m ≠ .osu then (.ok none : Res FieldErr (Option Mode))
          else if 5 ≤ v ∧ v ≤ 6 ∧ m ≠ .osu ∧ m ≠ .taiko then .ok none
          else if 7 ≤ v ∧ v ≤ 9 ∧ m = .mania then .ok none else .ok (some m)).toErr = none := by
        intro m
        split
        · rfl
        · split
          · rfl
          · split <;> rfl
      simp only [hok, Option.map_none, hn, hc]
      by_cases h0 : n = 0
      · subst h0; exact (congrArg (Option.map FieldErr.msg) (hs .osu)).symm
      by_cases h1 : n = 1
      · subst h1; exact (congrArg (Option.map FieldErr.msg) (hs .taiko)).symm
      by_cases h2 : n = 2
      · subst h2; exact (congrArg (Option.map FieldErr.msg) (hs .catch)).symm
      by_cases h3 : n = 3
      · subst h3; exact (congrArg (Option.map FieldErr.msg) (hs .mania)).symm
      simp [h0, h1, h2, h3, FieldErr.msg, Res.toErr]
  | sampleSet =>
    simp only [GKey.parse, generalSays, GSampleSet.parse]
    by_cases hv : v = 3
    · simp [hv, Res.toErr]
    by_cases h1 : s = c!"Normal"
    · simp [hv, h1, Res.toErr]
    by_cases h2 : s = c!"Soft"
    · simp [hv, h2, Res.toErr]
    by_cases h3 : s = c!"Drum"
    · simp [hv, h3, Res.toErr]
    by_cases h4 : s = c!"None"
    · simp [hv, h4, Res.toErr]
    simp [hv, h1, h2, h3, h4, Res.toErr, FieldErr.msg]
  | overlayPosition =>
    simp only [GKey.parse, generalSays, OverlayPosition.parse]
    by_cases hv : 3 ≤ v ∧ v ≤ 13
    · simp [hv, Res.toErr]
    by_cases h1 : s = c!"NoChange"
    · simp [hv, h1, Res.toErr]
    by_cases h2 : s = c!"Below"
    · simp [hv, h2, Res.toErr]
    by_cases h3 : s = c!"Above"
    · simp [hv, h3, Res.toErr]
    simp [hv, h1, h2, h3, Res.toErr, FieldErr.msg]

theorem editorSays_eq (v : Nat) (k : EKey) (s : Str) :
    editorSays k s = (EKey.parse k v s : Res _ (Option (k.Val D))).toErr.map FieldErr.msg := by
  cases k with
  | distanceSpacing | beatDivisor | timelineZoom => rfl
  | gridSize | currentTime => exact intSays_eq s
  | bookmarks =>
    simp only [EKey.parse, editorSays]
    rw [Res.toErr_some, marksSay_eq]

theorem toErr_iff {ε α : Type} {r : Res ε α} {f : ε → Str} {o : Option Str} (h : o = r.toErr.map f) (m : Str) :
    (∃ e, r = .err e ∧ f e = m) ↔ o = some m := by
  subst h
  cases r <;> simp [Res.toErr]

theorem toErr_ok_iff {ε α : Type} {r : Res ε α} {f : ε → Str} {o : Option Str} (h : o = r.toErr.map f) (hp : r ≠ .panic) :
    (∃ a, r = .ok a) ↔ o = none := by
  subst h
  cases r with
  | ok a => simp [Res.toErr]
  | err e => simp [Res.toErr]
  | panic => exact absurd rfl hp

/-- What is said of a refused value of `General`. -/
theorem C74_general_value (v : Nat) (k : GKey) (s m : Str) :
    (∃ e, (GKey.parse k v s : Res _ (Option (k.Val D))) = .err e ∧ e.msg = m) ↔ generalSays v k s = some m :=
  toErr_iff (generalSays_eq v k s) m

example : generalSays 14 .mode c!"9" = some c!"Unknown `GameMode` variant" :=
  (C74_general_value (D := Dec96) 14 .mode _ _).1 ⟨.modeUnknown, by rfl, rfl⟩

/-- What is said of a refused value of `Editor`. -/
theorem C74_editor_value (v : Nat) (k : EKey) (s m : Str) :
    (∃ e, (EKey.parse k v s : Res _ (Option (k.Val D))) = .err e ∧ e.msg = m) ↔ editorSays k s = some m :=
  toErr_iff (editorSays_eq v k s) m

example : editorSays .bookmarks c!"1,,x" = some c!"Invalid comma list, expected format of `key: value, value, value, ...`" :=
  (C74_editor_value (D := Dec96) 14 .bookmarks _ _).1 ⟨_, by rfl, by rfl⟩

/-! ## Sections -/

/-- The texts of all four kinds of sections, once those of the values are known. -/
theorem kvSays_iff {S : Schema} (hS : S.Lawful) {says : S.Key → Str → Option Str} {dup unk : Str} {msg : KVErr S.Err → Str} {v : Nat}
    (h1 : msg .invalidColonSet = c!"Invalid colon set, expected format of `key: value`") (h2 : msg .duplicateField = dup)
    (h3 : msg .invalidKey = unk)
    (h4 : ∀ k s m, (∃ e, S.parse k v s = .err e ∧ msg (.field e) = m) ↔ says k s = some m) (s : Str) (n : Nat) (m : Str) :
    (∃ e, S.fromStr v s = .err ⟨n, e⟩ ∧ msg e = m) ↔ KVSays S says dup unk v s n m := by
  constructor
  · rintro ⟨e, h, rfl⟩
    cases e with
    | invalidColonSet =>
      obtain ⟨es, r, a, b, rfl⟩ := (C06_any_text_no_colon v s n).1 h
      rw [h1]; exact .colon a b
    | duplicateField =>
      obtain ⟨pre, e, post, r, a, b, c, rfl, e', he, hk⟩ := (C06_any_text_duplicate hS v s n).1 h
      rw [h2]; exact .repeated a b c he hk
    | invalidKey =>
      obtain ⟨pre, e, post, r, a, b, c, rfl, hk⟩ := (C06_any_text_unknown hS v s n).1 h
      rw [h3]; exact .unknown a b c hk
    | field e =>
      obtain ⟨pre, x, post, r, a, b, c, rfl, hn, k, hk, hp⟩ := (C06_any_text_bad_value hS v s n e).1 h
      exact .value a b c hn hk ((h4 k _ _).1 ⟨e, hp, rfl⟩)
  · intro h
    cases h with
    | colon a b => exact ⟨_, (C06_any_text_no_colon v s _).2 ⟨_, _, a, b, rfl⟩, h1⟩
    | repeated a b c he hk => exact ⟨_, (C06_any_text_duplicate hS v s _).2 ⟨_, _, _, _, a, b, c, rfl, _, he, hk⟩, h2⟩
    | unknown a b c hk => exact ⟨_, (C06_any_text_unknown hS v s _).2 ⟨_, _, _, _, a, b, c, rfl, hk⟩, h3⟩
    | value a b c hn hk hm =>
      obtain ⟨e, hp, he⟩ := (h4 _ _ _).2 hm
      exact ⟨_, (C06_any_text_bad_value hS v s _ e).2 ⟨_, _, _, _, a, b, c, rfl, hn, _, hk, hp⟩, he⟩

theorem C74_general (v : Nat) (s : Str) (n : Nat) (m : Str) :
    (∃ e, (General D).fromStr v s = .err ⟨n, e⟩ ∧ generalMsg e = m) ↔
      KVSays (General D) (generalSays v) c!"Duplicate field were found in `General`" c!"The key doesn't exist in `General`" v s n m :=
  kvSays_iff (General_lawful D) (says := generalSays v) (msg := generalMsg) (v := v) rfl rfl rfl (fun k s m => C74_general_value (D := D) v k s m) s n m

theorem C74_editor (v : Nat) (s : Str) (n : Nat) (m : Str) :
    (∃ e, (Editor D).fromStr v s = .err ⟨n, e⟩ ∧ editorMsg e = m) ↔
      KVSays (Editor D) editorSays c!"Duplicate field in `Editor`" c!"The key doesn't exist in `Editor`" v s n m :=
  kvSays_iff (Editor_lawful D) (says := editorSays) (msg := editorMsg) (v := v) rfl rfl rfl (fun k s m => C74_editor_value (D := D) v k s m) s n m

example : KVSays (Editor Dec96) editorSays c!"Duplicate field in `Editor`" c!"The key doesn't exist in `Editor`" 14
    c!"GridSize: 4\nGridSize: 8" 1 c!"Duplicate field in `Editor`" := (C74_editor 14 _ _ _).1 ⟨_, by rfl, by rfl⟩

/-- In `Metadata` and `Difficulty` no value is refused. (Ids that are no numbers panic.) -/
theorem C74_metadata (v : Nat) (s : Str) (n : Nat) (m : Str) :
    (∃ e, Metadata.fromStr v s = .err ⟨n, e⟩ ∧ metadataMsg e = m) ↔
      KVSays Metadata (fun _ _ => none) c!"There is a duplicate field in the `Metadata` section" c!"The key doesn't exist in `General`" v s n m := by
  refine kvSays_iff Metadata_lawful rfl rfl rfl (fun k s m => ?_) s n m
  refine ⟨?_, fun h => by cases h⟩
  rintro ⟨e, h, -⟩
  change MKey.parse k v s = .err e at h
  revert h
  unfold MKey.parse
  split <;> intro h
  case h_8 =>
    rw [parseTags_eq] at h
    cases h
  all_goals first
    | cases h
    | (unfold idField at h; split at h <;> cases h)

example : KVSays Metadata (fun _ _ => none) c!"There is a duplicate field in the `Metadata` section" c!"The key doesn't exist in `General`" 14
    c!"Title: 4\nTitl: 8" 1 c!"The key doesn't exist in `General`" := (C74_metadata 14 _ _ _).1 ⟨_, by rfl, by rfl⟩

theorem C74_difficulty (v : Nat) (s : Str) (n : Nat) (m : Str) :
    (∃ e, (Difficulty D).fromStr v s = .err ⟨n, e⟩ ∧ difficultyMsg e = m) ↔
      KVSays (Difficulty D) (fun _ _ => none) c!"Duplicate field in `Difficulty`" c!"The key doesn't exist in `Difficulty`" v s n m := by
  refine kvSays_iff (Difficulty_lawful D) rfl rfl rfl (fun k s m => ?_) s n m
  refine ⟨?_, fun h => by cases h⟩
  rintro ⟨e, h, -⟩
  cases h

example : KVSays (Difficulty Dec96) (fun _ _ => none) c!"Duplicate field in `Difficulty`" c!"The key doesn't exist in `Difficulty`" 14
    c!"CircleSize: 4\nTitl: 8" 1 c!"The key doesn't exist in `Difficulty`" := (C74_difficulty 14 _ _ _).1 ⟨_, by rfl, by rfl⟩

/-! ## Variables of storyboard files -/

theorem varReads_iff {r : Str} : (∃ v, VarReads ('$' :: r) v) ↔ '=' ∈ ('$' :: r).takeWhile fun c => !(c == '\n') := by
  have e : ('$' :: r).takeWhile (fun c => !(c == '\n')) = '$' :: r.takeWhile fun c => !(c == '\n') := rfl
  rw [e]
  constructor
  · rintro ⟨v, h, h1, h2⟩
    obtain ⟨-, rfl⟩ := List.cons.inj h
    refine List.mem_cons_of_mem _ ?_
    rw [List.takeWhile_append_of_pos (by
      intro c hc
      have : c ≠ '\n' := fun e => h2 (e ▸ hc)
      simp [this])]
    simp
  · intro h
    have h : '=' ∈ r.takeWhile fun c => !(c == '\n') := by simpa using h
    obtain ⟨a, b, hab, ha⟩ := List.eq_append_cons_of_mem h
    refine ⟨⟨a, b ++ r.dropWhile fun c => !(c == '\n')⟩, ?_, ha, fun hn => ?_⟩
    · have := List.takeWhile_append_dropWhile (p := fun c => !(c == '\n')) (l := r)
      rw [hab] at this
      simp only [List.append_assoc, List.cons_append] at this
      exact congrArg (List.cons '$') this.symm
    · have : ∀ c ∈ r.takeWhile (fun c => !(c == '\n')), c ≠ '\n' := by
        intro c hc
        simpa using takeWhile_mem hc
      exact this _ (by rw [hab]; simp [hn]) rfl

/-- The text of the error for a refused variable. -/
theorem C66_variable (l m : Str) : (∃ e, Variable.parse l = .err e ∧ e.msg = m) ↔ variableSays l = some m := by
  refine toErr_iff ?_ m
  unfold variableSays
  by_cases h : l.head? = some '$'
  · rw [if_neg (by simp [h])]
    obtain ⟨r, rfl⟩ : ∃ r, l = '$' :: r := by
      cases l with
      | nil => cases h
      | cons c r => cases h; exact ⟨r, rfl⟩
    split
    · rename_i hm
      obtain ⟨v, hv⟩ := varReads_iff.2 hm
      rw [variable_parse.2 hv]; rfl
    · rename_i hm
      rw [variable_missingEquals.2 ⟨rfl, fun hv => hm (varReads_iff.1 hv)⟩]; rfl
  · rw [if_pos h, variable_missingHeader.2 h]; rfl

example : variableSays c!"x=1" = some (VarErr.msg .missingHeader) := (C66_variable _ _).1 ⟨_, by rfl, rfl⟩

/-- A storyboard file says the same of its sections as an .osu file, and of the content of its events. -/
theorem C66_osb_same (e : Ev.EvErr) : OsbErr.unexpectedLine.msg = FileErr.unexpectedLine.msg ∧
    OsbErr.duplicateSections.msg = FileErr.duplicateSections.msg ∧ OsbErr.unknownSection.msg = FileErr.unknownSection.msg ∧
    OsbErr.msg (.events e) = FileErr.msg (.events e) := ⟨rfl, rfl, rfl, rfl⟩

example : variableSays c!"$a" = some c!"Missing `=` for assignment" ∧ variableSays c!"a=1" = some c!"Missing the header `$`" ∧
    variableSays c!"$a=1" = none := by decide

end

example : generalSays 14 .mode c!"4" = some c!"Unknown `GameMode` variant" ∧ generalSays 4 .countdown c!"x" = none ∧
    generalSays 5 .countdown c!"x" = some c!"There was a problem parsing the `str` as an `Integer`" ∧
    generalSays 14 .letterboxInBreaks c!"2" = some c!"Error parsing value as `true` or `false`, expected value of 0 or 1" ∧
    generalSays 14 .letterboxInBreaks c!"+01" = none := by decide
example : editorSays .bookmarks c!"1,2,,3" = some c!"Invalid comma list, expected format of `key: value, value, value, ...`" ∧
    editorSays .bookmarks c!"1,2x,,3" = some c!"invalid digit found in string" := by decide
example : (General Dec96).fromStr 14 c!"Mode:0\nMode:1" = .err ⟨1, .duplicateField⟩ := by rfl
example : ∃ n m, KVSays (General Dec96) (generalSays 14) c!"Duplicate field were found in `General`"
    c!"The key doesn't exist in `General`" 14 c!"Mode:0\nMode:1" n m :=
  ⟨1, _, (C74_general 14 _ 1 _).1 ⟨.duplicateField, rfl, rfl⟩⟩

end Osu
