/-
C79: the fields of the key/value sections, with their names, values and the way they are written. Also the exact spelling
of printed integers (C01).
-/
import Verif.Spec.Fields
import Verif.Props.Sections

namespace Osu
open Parser

/-! ## Printed integers -/

theorem digit_facts {c : Char} (h : isDig c = true) : c.toNat - 48 < 10 ∧ digitChar (c.toNat - 48) = c := by
  unfold isDig digitVal at h
  split at h
  · refine ⟨by omega, ?_⟩
    unfold digitChar
    rw [show 48 + (c.toNat - 48) = c.toNat by omega]
    exact Char.ofNat_toNat c
  · cases h

theorem digit_zero {c : Char} (h : isDig c = true) (h0 : c.toNat - 48 = 0) : c = '0' := by
  have := (digit_facts h).2
  rw [h0] at this
  exact this.symm

theorem decVal_concat (s : Str) (c : Char) : decVal (s ++ [c]) = decVal s * 10 + (c.toNat - 48) := by
  unfold decVal
  rw [List.foldl_append]; rfl

theorem decVal_pos {c : Char} {s : Str} (hc : isDig c = true) (h0 : c ≠ '0') : 0 < decVal (c :: s) := by
  unfold decVal
  rw [List.foldl_cons]
  have h1 := decVal_foldl_le s (0 * 10 + (c.toNat - 48))
  have h2 : c.toNat - 48 ≠ 0 := fun e => h0 (digit_zero hc e)
  omega

theorem plainNat_eq : ∀ (n : Nat) (s : Str), PlainNat s n → s = natToStr n := by
  intro n
  induction n using Nat.strongRecOn with
  | _ n ih =>
    rintro s ⟨h1, h2, h3, h4⟩
    rcases List.eq_nil_or_concat s with rfl | ⟨i, c, rfl⟩
    · exact absurd rfl h1
    have hc : isDig c = true := h2 c (by simp)
    obtain ⟨hlt, hch⟩ := digit_facts hc
    cases i with
    | nil =>
      rw [natToStr_eq]
      have e : n = c.toNat - 48 := by rw [← h3]; simp [decVal]
      rw [if_pos (by omega), e, hch]; rfl
    | cons d i =>
      have hd : isDig d = true := h2 d (by simp)
      have hd0 : d ≠ '0' := by
        rintro rfl
        have := h4 rfl
        simp at this
      have hpos := decVal_pos (s := i) hd hd0
      rw [List.concat_eq_append, decVal_concat] at h3
      have hs : PlainNat (d :: i) (n / 10) := by
        refine ⟨by simp, fun x hx => h2 x (by rw [List.concat_eq_append]; exact List.mem_append_left _ hx), by omega, fun h => ?_⟩
        simp at h; exact absurd h hd0
      rw [natToStr_eq, if_neg (by omega), ← ih (n / 10) (by omega) _ hs, List.concat_eq_append]
      rw [show n % 10 = c.toNat - 48 by omega, hch]

theorem plainNat_natToStr (n : Nat) : PlainNat (natToStr n) n := by
  induction n using Nat.strongRecOn with
  | _ n ih =>
    rw [natToStr_eq]
    split
    · rename_i h
      have : ∀ d : Fin 10, PlainNat [digitChar d] d := by
        unfold PlainNat AllC decVal
        decide
      exact this ⟨n, h⟩
    · rename_i h
      obtain ⟨h1, h2, h3, h4⟩ := ih (n / 10) (by omega)
      have hd : isDig (digitChar (n % 10)) = true ∧ (digitChar (n % 10)).toNat - 48 = n % 10 := by
        have : ∀ d : Fin 10, isDig (digitChar d) = true ∧ (digitChar d).toNat - 48 = d := by decide
        exact this ⟨n % 10, by omega⟩
      refine ⟨by simp, ?_, ?_, ?_⟩
      · intro c hc
        rw [List.mem_append, List.mem_singleton] at hc
        rcases hc with hc | rfl
        · exact h2 c hc
        · exact hd.1
      · rw [decVal_concat, h3, hd.2]; omega
      · intro hh
        cases hs : natToStr (n / 10) with
        | nil => exact absurd hs h1
        | cons c r =>
          rw [hs] at hh h3
          have h5 := h4 (by rw [hs]; exact hh)
          rw [hs] at h5
          rw [h5] at h3
          simp [decVal] at h3
          omega

theorem plainNat_iff (s : Str) (n : Nat) : PlainNat s n ↔ s = natToStr n :=
  ⟨plainNat_eq n s, fun h => h ▸ plainNat_natToStr n⟩

theorem plainInt_iff (s : Str) (n : Int) : PlainInt s n ↔ s = intToStr n := by
  unfold PlainInt intToStr
  simp only [plainNat_iff]
  constructor
  · rintro (⟨h, rfl⟩ | ⟨h, d, rfl, rfl⟩)
    · rw [if_neg (by omega)]
    · rw [if_pos h]
  · rintro rfl
    split
    · exact .inr ⟨by assumption, _, rfl, rfl⟩
    · exact .inl ⟨by omega, rfl⟩

/-- C01: the printed text of an integer is its usual spelling: a minus sign if it is negative, then the digits without
leading zeros; and no other text is. -/
theorem C01_printed (s : Str) (n : Int32) : s = i32ToStr n ↔ PlainInt s n.toInt := (plainInt_iff s n.toInt).symm

example : PlainInt c!"-2147483648" (-2147483648) := (C01_printed _ (-2147483648)).1 (by decide)

/-- C01: the same for the unsigned types. -/
theorem C01_printed_unsigned (s : Str) (a : UInt8) (b : UInt32) (c : UInt64) :
    (s = u8ToStr a ↔ PlainNat s a.toNat) ∧ (s = u32ToStr b ↔ PlainNat s b.toNat) ∧
      (s = usizeToStr c ↔ PlainNat s c.toNat) :=
  ⟨(plainNat_iff _ _).symm, (plainNat_iff _ _).symm, (plainNat_iff _ _).symm⟩

example : i32ToStr (-2147483648) = c!"-2147483648" ∧ i32ToStr 0 = c!"0" ∧ ¬ PlainInt c!"007" 7 ∧ ¬ PlainInt c!"-0" 0 := by
  refine ⟨by decide, by decide, ?_, ?_⟩
  · rw [plainInt_iff]; decide
  · rw [plainInt_iff]; decide

/-! ## Values of the fields -/

theorem res_map_ok {ε ε' α β : Type} {r : Res ε α} {g : ε → ε'} {f : α → β} {y : β} :
    (r.mapErr g >>= fun a => (.ok (f a) : Res ε' β)) = .ok y ↔ ∃ a, r = .ok a ∧ y = f a := by
  cases r with
  | ok a => exact ⟨fun h => by cases h; exact ⟨a, rfl, rfl⟩, fun ⟨_, h, e⟩ => by cases h; subst e; rfl⟩
  | err e => exact ⟨fun h => (by cases h), fun ⟨_, h, _⟩ => (by cases h)⟩
  | panic => exact ⟨fun h => (by cases h), fun ⟨_, h, _⟩ => (by cases h)⟩

theorem res_bind_ok {ε α β : Type} {r : Res ε α} {f : α → β} {y : β} :
    (r >>= fun a => (.ok (f a) : Res ε β)) = .ok y ↔ ∃ a, r = .ok a ∧ y = f a := by
  cases r with
  | ok a => exact ⟨fun h => by cases h; exact ⟨a, rfl, rfl⟩, fun ⟨_, h, e⟩ => by cases h; subst e; rfl⟩
  | err e => exact ⟨fun h => (by cases h), fun ⟨_, h, _⟩ => (by cases h)⟩
  | panic => exact ⟨fun h => (by cases h), fun ⟨_, h, _⟩ => (by cases h)⟩

theorem spelled_iff {R : Str → Int → Prop} (f : Str → Res IntErr Int32) (h : ∀ s n, f s = .ok n ↔ R s n.toInt)
    (ps : List Str) (l : List Int32) : ps.map f = l.map .ok ↔ Spelled R ps l := by
  induction ps generalizing l with
  | nil =>
    cases l with
    | nil => exact ⟨fun _ => .nil, fun _ => rfl⟩
    | cons => exact ⟨fun h => (by cases h), fun h => (by cases h)⟩
  | cons p ps ih =>
    cases l with
    | nil => exact ⟨fun h => (by cases h), fun h => (by cases h)⟩
    | cons n l =>
      rw [List.map_cons, List.map_cons, List.cons.injEq, ih, h]
      exact ⟨fun ⟨a, b⟩ => .cons a b, fun h => (by cases h with | cons a b => exact ⟨a, b⟩)⟩

theorem spelled_plain (ps : List Str) (l : List Int32) : ps = l.map i32ToStr ↔ Spelled PlainInt ps l := by
  induction ps generalizing l with
  | nil =>
    cases l with
    | nil => exact ⟨fun _ => .nil, fun _ => rfl⟩
    | cons => exact ⟨fun h => (by cases h), fun h => (by cases h)⟩
  | cons p ps ih =>
    cases l with
    | nil => exact ⟨fun h => (by cases h), fun h => (by cases h)⟩
    | cons n l =>
      rw [List.map_cons, List.cons.injEq, ih, C01_printed]
      exact ⟨fun ⟨a, b⟩ => .cons a b, fun h => (by cases h with | cons a b => exact ⟨a, b⟩)⟩

theorem numeral_noComma {s : Str} {n : Int} (h : IsNumeral s n) : ',' ∉ s := by
  obtain ⟨ds, -, hd, h⟩ := h
  have hn : ',' ∉ ds := fun hc => absurd (hd _ hc) (by decide)
  rcases h with ⟨rfl, -⟩ | ⟨rfl, -⟩ | ⟨rfl, -⟩
  · exact hn
  · simp [hn]
  · simp [hn]

theorem spelled_noComma {ps : List Str} {l : List Int32} (h : Spelled IsNumeral ps l) : ∀ p ∈ ps, ',' ∉ p := by
  induction h with
  | nil => simp
  | cons h t ih =>
    intro p hp
    rcases List.mem_cons.1 hp with rfl | hp
    · exact numeral_noComma h
    · exact ih p hp

theorem allC_not {c : Char} {l : List Str} (h : ∀ p ∈ l, c ∉ p) : ∀ p ∈ l, AllC (fun d => !(d == c)) p := by
  intro p hp d hd
  have : d ≠ c := by rintro rfl; exact h p hp hd
  simp [this]

theorem nodup_map_eq {α β : Type} {f : α → β} {l : List α} (h : (l.map f).Nodup) {a b : α} (ha : a ∈ l) (hb : b ∈ l)
    (e : f a = f b) : a = b := by
  induction l with
  | nil => cases ha
  | cons x l ih =>
    rw [List.map_cons, List.nodup_cons] at h
    rcases List.mem_cons.1 ha with rfl | ha'
    · rcases List.mem_cons.1 hb with rfl | hb'
      · rfl
      · exact absurd (List.mem_map.2 ⟨b, hb', e.symm⟩) h.1
    · rcases List.mem_cons.1 hb with rfl | hb'
      · exact absurd (List.mem_map.2 ⟨a, ha', e⟩) h.1
      · exact ih h.2 ha' hb'

section
variable {D : Type} [DecLib D]

theorem means_text (v : Nat) (s : Str) (o : Option Str) :
    textField s = .ok o ↔ FMeans (D := D) v s (o.map .text) .text := by
  unfold textField FMeans
  cases o <;> simp [eq_comm]

theorem means_int (v : Nat) (s : Str) (o : Option Int32) :
    intField s = .ok o ↔ FMeans (D := D) v s (o.map .int) .integer := by
  unfold intField FMeans
  rw [res_map_ok]
  simp only [C01_i32_accepts]
  cases o <;> simp

theorem means_flag (v : Nat) (s : Str) (o : Option Bool) :
    boolField s = .ok o ↔ FMeans (D := D) v s (o.map .flag) .flag := by
  unfold boolField FMeans
  rw [res_map_ok]
  simp only [C09_accepts]
  cases o with
  | none => simp
  | some b => cases b <;> simp

theorem means_number (v : Nat) (s : Str) (o : Option (Decimal D)) :
    decField s = .ok o ↔ FMeans (D := D) v s (o.map .number) .number := by
  unfold decField Decimal.ofStr FMeans
  cases h : (DecLib.parse s : Option D) with
  | none => cases o <;> simp [eq_comm]
  | some d => cases o <;> simp [eq_comm]

theorem means_ints (v : Nat) (s : Str) (o : Option (List Int32)) :
    (parseBookmarks s >>= fun l => .ok (some l)) = .ok o ↔ FMeans (D := D) v s (o.map .ints) .integers := by
  rw [res_bind_ok]
  simp only [C08_bookmarks_accepts, spelled_iff parseI32 C01_i32_accepts]
  unfold FMeans
  cases o with
  | none => simp
  | some l =>
    simp only [Option.some.injEq, Option.map_some, FVal.ints.injEq]
    constructor
    · rintro ⟨_, h | h, rfl⟩
      · exact .inl h
      · exact .inr ⟨_, _, (join_splitOnC ',' s).symm, splitOnC_ne_nil _ _, h, rfl⟩
    · rintro (h | ⟨ps, _, h1, h2, h3, rfl⟩)
      · exact ⟨_, .inl h, rfl⟩
      · refine ⟨_, .inr ?_, rfl⟩
        rw [h1, splitOnC_join h2 (allC_not (spelled_noComma h3))]
        exact h3

theorem means_words (v : Nat) (s : Str) (o : Option (List Str)) :
    (parseTags s >>= fun l => .ok (some l)) = .ok o ↔ FMeans (D := D) v s (o.map .words) .words := by
  rw [res_bind_ok]
  unfold FMeans
  simp only [parseTags_eq]
  cases o with
  | none => simp
  | some l =>
    simp only [Option.some.injEq, Option.map_some, FVal.words.injEq, Res.ok.injEq]
    constructor
    · rintro ⟨_, rfl, rfl⟩
      refine ⟨_, splitOnC_ne_nil _ _, ?_, (join_splitOnC ' ' s).symm, rfl⟩
      intro w hw hc
      have := splitOnC_chars ' ' s w hw ' ' hc
      simp at this
    · rintro ⟨_, h1, h2, rfl, rfl⟩
      exact ⟨_, splitOnC_join h1 (allC_not h2), rfl⟩

theorem usize_ok (s : Str) (n : Nat) (h : n ≤ 18446744073709551615) :
    parseUsize s = .ok (UInt64.ofNat n) ↔ IsUNumeral s n := by
  rw [C01_usize_accepts]
  rw [UInt64.toNat_ofNat_of_lt' (by show n < 18446744073709551616; omega)]

theorem means_countdown (v : Nat) (s : Str) (o : Option Countdown) :
    Countdown.parse v s = .ok o ↔ FMeans (D := D) v s (o.map .countdown) .countdown := by
  unfold Countdown.parse FMeans
  by_cases hv : 3 ≤ v ∧ v ≤ 4
  · rw [if_pos hv]
    cases o <;> simp [hv.1, hv.2]
  · rw [if_neg hv]
    simp only [hv, false_and, not_false_iff, true_and, false_or]
    cases hp : parseUsize s with
    | err e =>
      simp only
      refine ⟨fun h => (by cases h), ?_⟩
      rintro ⟨c, hc, -⟩
      rw [← usize_ok s _ (by cases c <;> decide), hp] at hc
      cases hc
    | panic =>
      refine ⟨fun h => (by cases h), ?_⟩
      rintro ⟨c, hc, -⟩
      rw [← usize_ok s _ (by cases c <;> decide), hp] at hc
      cases hc
    | ok n =>
      have key : ∀ c, IsUNumeral s (countdownNo c) ↔ n = UInt64.ofNat (countdownNo c) := by
        intro c
        rw [← usize_ok s _ (by cases c <;> decide), hp, Res.ok.injEq]
      simp only [key]
      unfold Countdown.fromRepr
      rw [if_neg hv]
      by_cases h0 : n = 0
      · subst h0
        simp only [if_true, Res.ok.injEq]
        constructor
        · rintro rfl; exact ⟨.noCountdown, rfl, rfl⟩
        · rintro ⟨c, hc, h⟩
          cases c <;> first | (exact absurd hc (by decide)) | (cases o <;> simp_all)
      by_cases h1 : n = 1
      · subst h1
        simp only [h0, if_false, if_true, Res.ok.injEq]
        constructor
        · rintro rfl; exact ⟨.normal, rfl, rfl⟩
        · rintro ⟨c, hc, h⟩
          cases c <;> first | (exact absurd hc (by decide)) | (cases o <;> simp_all)
      by_cases h2 : n = 2
      · subst h2
        simp only [h0, h1, if_false, if_true, Res.ok.injEq]
        constructor
        · rintro rfl; exact ⟨.half, rfl, rfl⟩
        · rintro ⟨c, hc, h⟩
          cases c <;> first | (exact absurd hc (by decide)) | (cases o <;> simp_all)
      by_cases h3 : n = 3
      · subst h3
        simp only [h0, h1, h2, if_false, if_true, Res.ok.injEq]
        constructor
        · rintro rfl; exact ⟨.double, rfl, rfl⟩
        · rintro ⟨c, hc, h⟩
          cases c <;> first | (exact absurd hc (by decide)) | (cases o <;> simp_all)
      · simp only [h0, h1, h2, h3, if_false]
        refine ⟨fun h => (by cases h), ?_⟩
        rintro ⟨c, rfl, -⟩
        cases c
        · exact absurd rfl h0
        · exact absurd rfl h1
        · exact absurd rfl h2
        · exact absurd rfl h3

theorem means_sampleSet (v : Nat) (s : Str) (o : Option GSampleSet) :
    GSampleSet.parse v s = .ok o ↔ FMeans (D := D) v s (o.map .sampleSet) .sampleSet := by
  unfold GSampleSet.parse FMeans
  by_cases hv : v = 3
  · rw [if_pos hv]
    cases o <;> simp [hv]
  · rw [if_neg hv]
    simp only [hv, false_and, ne_eq, not_false_iff, true_and, false_or]
    constructor
    · intro h
      split at h
      · subst_vars; cases h; exact ⟨.normal, rfl, rfl⟩
      split at h
      · subst_vars; cases h; exact ⟨.soft, rfl, rfl⟩
      split at h
      · subst_vars; cases h; exact ⟨.drum, rfl, rfl⟩
      split at h
      · subst_vars; cases h; exact ⟨.none, rfl, rfl⟩
      · cases h
    · rintro ⟨x, rfl, h⟩
      cases o with
      | none => cases h
      | some y => cases h; cases x <;> rfl

theorem means_overlay (v : Nat) (s : Str) (o : Option OverlayPosition) :
    OverlayPosition.parse v s = .ok o ↔ FMeans (D := D) v s (o.map .overlay) .overlay := by
  unfold OverlayPosition.parse FMeans
  by_cases hv : 3 ≤ v ∧ v ≤ 13
  · rw [if_pos hv]
    cases o <;> simp [hv.1, hv.2]
  · rw [if_neg hv]
    simp only [hv, false_and, not_false_iff, true_and, false_or]
    constructor
    · intro h
      split at h
      · subst_vars; cases h; exact ⟨.noChange, rfl, rfl⟩
      split at h
      · subst_vars; cases h; exact ⟨.below, rfl, rfl⟩
      split at h
      · subst_vars; cases h; exact ⟨.above, rfl, rfl⟩
      · cases h
    · rintro ⟨x, rfl, h⟩
      cases o with
      | none => cases h
      | some y => cases h; cases x <;> rfl

theorem mode_numbered (s : Str) (m : Mode) (h : IsUNumeral s (modeNo m)) (v : Nat) :
    Mode.parse v s = .ok (if m.existsIn v then some m else none) := by
  rw [← usize_ok s _ (by cases m <;> decide)] at h
  rw [← C07_mode_roundtrip v m]
  have h2 : parseUsize (natToStr m.repr) = .ok (UInt64.ofNat (modeNo m)) := by cases m <;> rfl
  unfold Mode.parse
  rw [h, h2]

theorem modeKnown_iff (v : Nat) (m : Mode) : ModeKnown v m ↔ m.existsIn v = true := by
  cases m <;> simp [ModeKnown, Mode.existsIn] <;> omega

theorem means_mode (v : Nat) (s : Str) (o : Option Mode) :
    Mode.parse v s = .ok o ↔ FMeans (D := D) v s (o.map .mode) .mode := by
  unfold FMeans
  constructor
  · intro h
    have hm : ∃ m, IsUNumeral s (modeNo m) := by
      unfold Mode.parse at h
      split at h
      · cases h
      · cases h
      · rename_i n hp
        simp only at h
        by_cases h0 : n = 0
        · exact ⟨.osu, (usize_ok s 0 (by decide)).1 (by rw [hp, h0]; rfl)⟩
        by_cases h1 : n = 1
        · exact ⟨.taiko, (usize_ok s 1 (by decide)).1 (by rw [hp, h1]; rfl)⟩
        by_cases h2 : n = 2
        · exact ⟨.catch, (usize_ok s 2 (by decide)).1 (by rw [hp, h2]; rfl)⟩
        by_cases h3 : n = 3
        · exact ⟨.mania, (usize_ok s 3 (by decide)).1 (by rw [hp, h3]; rfl)⟩
        · simp only [h0, h1, h2, h3, if_false] at h
          cases h
    obtain ⟨m, hm⟩ := hm
    refine ⟨m, hm, ?_⟩
    rw [mode_numbered s m hm v] at h
    cases h
    rw [modeKnown_iff]
    by_cases hk : m.existsIn v = true
    · exact .inl ⟨hk, by rw [if_pos hk]; rfl⟩
    · exact .inr ⟨hk, by rw [if_neg hk]; rfl⟩
  · rintro ⟨m, hm, h⟩
    rw [mode_numbered s m hm v]
    rw [modeKnown_iff] at h
    rcases h with ⟨hk, h⟩ | ⟨hk, h⟩
    · rw [if_pos hk]
      cases o with
      | none => cases h
      | some y => cases h; rfl
    · rw [if_neg hk]
      cases o with
      | none => rfl
      | some y => cases h

/-! ## Written values -/

theorem shows_flag (t : Str) (b : Bool) : t = boolToStr b ↔ FShows (D := D) t (.flag b) := by
  unfold boolToStr FShows; rfl

theorem shows_number (t : Str) (x : Decimal D) : t = Decimal.toStr x ↔ FShows (D := D) t (.number x) := by
  cases x <;> exact Iff.rfl

theorem shows_ints (t : Str) (l : List Int32) : t = bookmarksToStr l ↔ FShows (D := D) t (.ints l) := by
  unfold bookmarksToStr FShows
  simp only [← spelled_plain]
  exact ⟨fun h => ⟨_, h, rfl⟩, fun ⟨_, h, e⟩ => e ▸ h⟩

theorem shows_countdown (t : Str) (c : Countdown) : t = natToStr c.repr ↔ FShows (D := D) t (.countdown c) := by
  show _ ↔ PlainNat t (countdownNo c)
  rw [plainNat_iff]
  cases c <;> exact Iff.rfl

theorem shows_mode (t : Str) (c : Mode) : t = natToStr c.repr ↔ FShows (D := D) t (.mode c) := by
  show _ ↔ PlainNat t (modeNo c)
  rw [plainNat_iff]
  cases c <;> exact Iff.rfl

theorem shows_sampleSet (t : Str) (c : GSampleSet) : t = c.text ↔ FShows (D := D) t (.sampleSet c) := by
  cases c <;> exact Iff.rfl

theorem shows_overlay (t : Str) (c : OverlayPosition) : t = c.text ↔ FShows (D := D) t (.overlay c) := by
  cases c <;> exact Iff.rfl

/-! ## Sections -/

/-- How the keys of a schema stand in a table of fields. -/
structure Tabled (S : Schema) (D : Type) [DecLib D] where
  fld : S.Key → FField
  toF : (k : S.Key) → S.Val k → FVal D
  name : ∀ k, S.name k = (fld k).name
  reads : ∀ k v s o, S.parse k v s = .ok o ↔ FMeans v s (o.map (toF k)) (fld k).kind
  writes : ∀ k v x t, S.shw k v x = some t ↔ (fld k).written v ∧ FShows t (toF k x)
  total : ∀ k v x, (fld k).written v → (S.shw k v x).isSome

def Tabled.view {S : Schema} (T : Tabled S D) (g : S.Section) : FView D :=
  S.keys.map fun k => (T.fld k, (g k).map (T.toF k))

theorem Tabled.read {S : Schema} (hS : S.Lawful) (T : Tabled S D) (v : Nat) (s : Str) (g : S.Section) :
    S.fromStr v s = .ok g ↔ ∃ es r, KVSplits s es r ∧ Blank r ∧ FReads v es (T.view g) := by
  rw [C06_any_text_accepted hS]
  unfold FReads Tabled.view
  constructor
  · rintro ⟨es, r, h1, h2, h3, h4, h5⟩
    refine ⟨es, r, h1, h2, h3, ?_, ?_⟩
    · intro e he
      obtain ⟨k, hk, -⟩ := h4 e he
      exact ⟨_, List.mem_map.2 ⟨k, hS.all k, rfl⟩, by rw [← hk]; exact (T.name k).symm⟩
    · intro p hp
      obtain ⟨k, -, rfl⟩ := List.mem_map.1 hp
      by_cases hk : ∃ e ∈ es, e.1.key = S.name k
      · obtain ⟨e, he, hek⟩ := hk
        obtain ⟨k', hk', hp'⟩ := h4 e he
        have hkk : k' = k := hS.inj _ _ (hk'.trans hek)
        subst hkk
        exact .inl ⟨e, he, hek.trans (T.name _), (T.reads _ _ _ _).1 hp'⟩
      · have hno : ∀ e ∈ es, e.1.key ≠ S.name k := fun e he h => hk ⟨e, he, h⟩
        refine .inr ⟨fun e he => by rw [← T.name k]; exact hno e he, ?_⟩
        show (g k).map _ = none
        rw [h5 k hno]; rfl
  · rintro ⟨es, r, h1, h2, h3, h4, h5⟩
    refine ⟨es, r, h1, h2, h3, ?_, ?_⟩
    · intro e he
      obtain ⟨p, hp, hn⟩ := h4 e he
      have hv := h5 p hp
      obtain ⟨k, -, rfl⟩ := List.mem_map.1 hp
      refine ⟨k, (T.name k).trans hn, (T.reads _ _ _ _).2 ?_⟩
      rcases hv with ⟨e', he', hk', hm⟩ | ⟨hno, -⟩
      · have : e'.1 = e.1 := by
          have hkk : e'.1.key = e.1.key := hk'.trans hn
          have := nodup_map_eq h3 he' he hkk
          rw [this]
        rw [← this]
        exact hm
      · exact absurd hn.symm (hno e he)
    · intro k hk
      have hv := h5 _ (List.mem_map.2 ⟨k, hS.all k, rfl⟩)
      rcases hv with ⟨e, he, hek, -⟩ | ⟨-, h⟩
      · exact absurd (hek.trans (T.name k).symm) (hk e he)
      · cases hg : g k with
        | none => rfl
        | some x => rw [hg] at h; cases h

theorem Tabled.lines_iff {S : Schema} (T : Tabled S D) (v : Nat) (g : S.Section) (ks : List S.Key) (ls : List Str) :
    ks.filterMap (S.fieldStr v g) = ls ↔
      FLines v (S.spacing v) (ks.map fun k => (T.fld k, (g k).map (T.toF k))) ls := by
  induction ks generalizing ls with
  | nil => exact ⟨fun h => h ▸ .nil, fun h => by cases h; rfl⟩
  | cons k ks ih =>
    rw [List.filterMap_cons, List.map_cons]
    cases hg : g k with
    | none =>
      rw [show S.fieldStr v g k = none by unfold Schema.fieldStr; rw [hg]]
      simp only [Option.map_none]
      rw [ih]
      exact ⟨fun h => .skip (.inl rfl) h, fun h => by cases h with | skip _ t => exact t⟩
    | some x =>
      simp only [Option.map_some]
      cases hs : S.shw k v x with
      | none =>
        rw [show S.fieldStr v g k = none by unfold Schema.fieldStr; rw [hg]; simp only [hs]]
        simp only
        rw [ih]
        by_cases hw : (T.fld k).written v
        · constructor
          · intro h
            have := T.total k v x hw
            rw [hs] at this; cases this
          · intro h
            cases h with
            | skip hh t => exact t
            | line _ hsh t =>
              have := (T.writes k v x _).2 ⟨hw, hsh⟩
              rw [hs] at this; cases this
        · exact ⟨fun h => .skip (.inr hw) h, fun h => by
            cases h with
            | skip _ t => exact t
            | line hw' _ _ => exact absurd hw' hw⟩
      | some t =>
        rw [show S.fieldStr v g k = some (S.name k ++ [':'] ++ S.spacing v t ++ t) by
          unfold Schema.fieldStr; rw [hg]; simp only [hs]]
        simp only
        obtain ⟨hw, hsh⟩ := (T.writes k v x t).1 hs
        constructor
        · rintro rfl
          have := FLines.line (D := D) (space := S.spacing v) (x := T.toF k x) hw hsh ((ih _).1 rfl)
          rw [T.name k]
          simpa using this
        · intro h
          cases h with
          | skip hh t => rcases hh with hh | hh
                         · cases hh
                         · exact absurd hw hh
          | line hw' hsh' t =>
            have := (T.writes k v x _).2 ⟨hw', hsh'⟩
            rw [hs] at this
            cases this
            rw [(ih _).2 t, T.name k]
            simp

theorem Tabled.write {S : Schema} (T : Tabled S D) (v : Nat) (g : S.Section) (t : Str) :
    S.toStr v g = t ↔ FWritten v (S.spacing v) (T.view g) t := by
  unfold Schema.toStr FWritten Tabled.view
  simp only [← T.lines_iff v g S.keys]
  exact ⟨fun h => ⟨_, rfl, h.symm⟩, fun ⟨_, e, h⟩ => by rw [e]; exact h.symm⟩

/-- The row of a field of the General section. -/
def gField : GKey → FField
  | .audioFilename => ⟨c!"AudioFilename", .text, always⟩
  | .audioLeadIn => ⟨c!"AudioLeadIn", .integer, always⟩
  | .audioHash => ⟨c!"AudioHash", .text, fun v => v ≤ 13⟩
  | .previewTime => ⟨c!"PreviewTime", .integer, always⟩
  | .countdown => ⟨c!"Countdown", .countdown, fun v => ¬ (3 ≤ v ∧ v ≤ 4)⟩
  | .sampleSet => ⟨c!"SampleSet", .sampleSet, fun v => v ≠ 3⟩
  | .stackLeniency => ⟨c!"StackLeniency", .number, always⟩
  | .mode => ⟨c!"Mode", .mode, always⟩
  | .letterboxInBreaks => ⟨c!"LetterboxInBreaks", .flag, always⟩
  | .storyFireInFront => ⟨c!"StoryFireInFront", .flag, always⟩
  | .useSkinSprites => ⟨c!"UseSkinSprites", .flag, always⟩
  | .alwaysShowPlayfield => ⟨c!"AlwaysShowPlayfield", .flag, always⟩
  | .overlayPosition => ⟨c!"OverlayPosition", .overlay, fun v => ¬ (3 ≤ v ∧ v ≤ 13)⟩
  | .skinPreference => ⟨c!"SkinPreference", .text, always⟩
  | .epilepsyWarning => ⟨c!"EpilepsyWarning", .flag, always⟩
  | .countdownOffset => ⟨c!"CountdownOffset", .integer, always⟩
  | .specialStyle => ⟨c!"SpecialStyle", .flag, always⟩
  | .widescreenStoryboard => ⟨c!"WidescreenStoryboard", .flag, always⟩
  | .samplesMatchPlaybackRate => ⟨c!"SamplesMatchPlaybackRate", .flag, always⟩
  | .editorBookmarks => ⟨c!"EditorBookmarks", .integers, fun v => v ≤ 5⟩
  | .editorDistanceSpacing => ⟨c!"EditorDistanceSpacing", .number, fun v => v ≤ 5⟩

/-- What a field of the General section holds. -/
def gVal : (k : GKey) → k.Val D → FVal D
  | .audioFilename => .text
  | .audioLeadIn => .int
  | .audioHash => .text
  | .previewTime => .int
  | .countdown => .countdown
  | .sampleSet => .sampleSet
  | .stackLeniency => .number
  | .mode => .mode
  | .letterboxInBreaks => .flag
  | .storyFireInFront => .flag
  | .useSkinSprites => .flag
  | .alwaysShowPlayfield => .flag
  | .overlayPosition => .overlay
  | .skinPreference => .text
  | .epilepsyWarning => .flag
  | .countdownOffset => .int
  | .specialStyle => .flag
  | .widescreenStoryboard => .flag
  | .samplesMatchPlaybackRate => .flag
  | .editorBookmarks => .ints
  | .editorDistanceSpacing => .number

/-- The row of a field of the Editor section. -/
def eField : EKey → FField
  | .bookmarks => ⟨c!"Bookmarks", .integers, always⟩
  | .distanceSpacing => ⟨c!"DistanceSpacing", .number, always⟩
  | .beatDivisor => ⟨c!"BeatDivisor", .number, always⟩
  | .gridSize => ⟨c!"GridSize", .integer, always⟩
  | .timelineZoom => ⟨c!"TimelineZoom", .number, always⟩
  | .currentTime => ⟨c!"CurrentTime", .integer, fun v => v = 10⟩

/-- What a field of the Editor section holds. -/
def eVal : (k : EKey) → k.Val D → FVal D
  | .bookmarks => .ints
  | .distanceSpacing => .number
  | .beatDivisor => .number
  | .gridSize => .int
  | .timelineZoom => .number
  | .currentTime => .int

/-- The row of a field of the Metadata section. -/
def mField : MKey → FField
  | .title => ⟨c!"Title", .text, always⟩
  | .titleUnicode => ⟨c!"TitleUnicode", .text, always⟩
  | .artist => ⟨c!"Artist", .text, always⟩
  | .artistUnicode => ⟨c!"ArtistUnicode", .text, always⟩
  | .creator => ⟨c!"Creator", .text, always⟩
  | .version => ⟨c!"Version", .text, always⟩
  | .source => ⟨c!"Source", .text, always⟩
  | .tags => ⟨c!"Tags", .words, always⟩
  | .beatmapID => ⟨c!"BeatmapID", .integer, always⟩
  | .beatmapSetID => ⟨c!"BeatmapSetID", .integer, always⟩

/-- What a field of the Metadata section holds. -/
def mVal : (k : MKey) → k.Val → FVal D
  | .title => .text
  | .titleUnicode => .text
  | .artist => .text
  | .artistUnicode => .text
  | .creator => .text
  | .version => .text
  | .source => .text
  | .tags => .words
  | .beatmapID => .int
  | .beatmapSetID => .int

/-- The row of a field of the Difficulty section. -/
def dField : DKey → FField
  | .hpDrainRate => ⟨c!"HPDrainRate", .number, always⟩
  | .circleSize => ⟨c!"CircleSize", .number, always⟩
  | .overallDifficulty => ⟨c!"OverallDifficulty", .number, always⟩
  | .approachRate => ⟨c!"ApproachRate", .number, always⟩
  | .sliderMultiplier => ⟨c!"SliderMultiplier", .number, always⟩
  | .sliderTickRate => ⟨c!"SliderTickRate", .number, always⟩

theorem means_id (v : Nat) (s : Str) (o : Option Int32) :
    idField s = .ok o ↔ FMeans (D := D) v s (o.map .int) .integer := by
  rw [← means_int]
  unfold idField intField
  cases parseI32 s with
  | ok n => rfl
  | err e => exact ⟨fun h => (by cases h), fun h => (by cases h)⟩
  | panic => exact ⟨fun h => (by cases h), fun h => (by cases h)⟩

theorem some_plain {a t : Str} {P : Prop} (h : t = a ↔ P) : some a = some t ↔ True ∧ P := by
  rw [Option.some.injEq, eq_comm, h, true_and]

theorem some_gated {c : Prop} [Decidable c] {a t : Str} {W P : Prop} (hc : W ↔ ¬ c) (h : t = a ↔ P) :
    (if c then none else some a) = some t ↔ W ∧ P := by
  rw [hc, ← h]
  split
  · rename_i hh; exact ⟨fun h => (by cases h), fun h => absurd hh h.1⟩
  · rename_i hh; rw [Option.some.injEq, eq_comm]; exact ⟨fun h => ⟨hh, h⟩, fun h => h.2⟩

variable (D) in
/-- The General section and its table. -/
def generalTabled : Tabled (General D) D where
  fld := gField
  toF := gVal
  name k := by cases k <;> rfl
  reads k v s o := by
    cases k
    case audioFilename | audioHash | skinPreference => exact means_text v s o
    case audioLeadIn | previewTime | countdownOffset => exact means_int v s o
    case countdown => exact means_countdown v s o
    case sampleSet => exact means_sampleSet v s o
    case mode => exact means_mode v s o
    case overlayPosition => exact means_overlay v s o
    case stackLeniency | editorDistanceSpacing => exact means_number v s o
    case editorBookmarks => exact means_ints v s o
    all_goals exact means_flag v s o
  writes k v x t := by
    cases k
    case audioFilename | skinPreference => exact some_plain Iff.rfl
    case audioHash => exact some_gated (W := v ≤ 13) (by omega) Iff.rfl
    case audioLeadIn | previewTime | countdownOffset => exact some_plain (C01_printed _ _)
    case countdown => exact some_gated Iff.rfl (shows_countdown _ _)
    case sampleSet => exact some_gated Iff.rfl (shows_sampleSet _ _)
    case mode => exact some_plain (shows_mode _ _)
    case overlayPosition => exact some_gated Iff.rfl (shows_overlay _ _)
    case stackLeniency => exact some_plain (shows_number _ _)
    case editorDistanceSpacing => exact some_gated (W := v ≤ 5) (by omega) (shows_number _ _)
    case editorBookmarks => exact some_gated (W := v ≤ 5) (by omega) (shows_ints _ _)
    all_goals exact some_plain (shows_flag _ _)
  total k v x h := by
    show (GKey.shw k v x).isSome
    cases k <;> simp only [gField] at h <;> simp only [GKey.shw, Countdown.shw, GSampleSet.shw, Mode.shw, OverlayPosition.shw] <;>
      first | rfl | (rw [if_neg h]; rfl) | (rw [if_neg (by omega)]; rfl)

variable (D) in
/-- The Editor section and its table. -/
def editorTabled : Tabled (Editor D) D where
  fld := eField
  toF := eVal
  name k := by cases k <;> rfl
  reads k v s o := by
    cases k
    case bookmarks => exact means_ints v s o
    case gridSize | currentTime => exact means_int v s o
    all_goals exact means_number v s o
  writes k v x t := by
    cases k
    case bookmarks => exact some_plain (shows_ints _ _)
    case gridSize => exact some_plain (C01_printed _ _)
    case currentTime => exact some_gated (W := v = 10) (by omega) (C01_printed _ _)
    all_goals exact some_plain (shows_number _ _)
  total k v x h := by
    show (EKey.shw k v x).isSome
    cases k <;> simp only [eField] at h <;> simp only [EKey.shw] <;>
      first | rfl | (rw [if_neg (by omega)]; rfl)

variable (D) in
/-- The Metadata section and its table. -/
def metadataTabled : Tabled Metadata D where
  fld := mField
  toF := mVal
  name k := by cases k <;> rfl
  reads k v s o := by
    cases k
    case tags => exact means_words v s o
    case beatmapID | beatmapSetID => exact means_id v s o
    all_goals exact means_text v s o
  writes k v x t := by
    cases k
    case beatmapID | beatmapSetID => exact some_plain (C01_printed _ _)
    all_goals exact some_plain Iff.rfl
  total k v x h := by cases k <;> rfl

variable (D) in
/-- The Difficulty section and its table. -/
def difficultyTabled : Tabled (Difficulty D) D where
  fld := dField
  toF := fun _ => .number
  name k := by cases k <;> rfl
  reads k v s o := by cases k <;> exact means_number v s o
  writes k v x t := by cases k <;> exact some_plain (shows_number _ _)
  total k v x h := by cases k <;> rfl

theorem diffSpacing_eq (v : Nat) : diffSpacing v = difficultySpace v := by
  funext t
  unfold diffSpacing difficultySpace
  by_cases h1 : t = c!"SliderTickRate" <;> by_cases h2 : t = c!"SliderMultipler" <;>
    by_cases hv : 3 ≤ v ∧ v ≤ 4
  all_goals
    have hv' : (v = 3 ∨ v = 4) ↔ (3 ≤ v ∧ v ≤ 4) := by omega
    simp only [hv', hv, h1, h2, if_true, if_false, and_true, and_false, or_true, true_or, or_false, false_or]
  all_goals rfl

/-! ## C79 -/

/-- C79: which texts are read as a General section, and what each field then holds. -/
theorem C79_general_read (v : Nat) (s : Str) (g : (General D).Section) :
    (General D).fromStr v s = .ok g ↔ ∃ es r, KVSplits s es r ∧ Blank r ∧ FReads v es (generalView g) :=
  (generalTabled D).read (General_lawful D) v s g

/-- C79: the text written for a General section. -/
theorem C79_general_written (v : Nat) (g : (General D).Section) (t : Str) :
    (General D).toStr v g = t ↔ FWritten v (fun _ => [' ']) (generalView g) t :=
  (generalTabled D).write v g t

/-- C79: which texts are read as an Editor section, and what each field then holds. -/
theorem C79_editor_read (v : Nat) (s : Str) (g : (Editor D).Section) :
    (Editor D).fromStr v s = .ok g ↔ ∃ es r, KVSplits s es r ∧ Blank r ∧ FReads v es (editorView g) :=
  (editorTabled D).read (Editor_lawful D) v s g

/-- C79: the text written for an Editor section. -/
theorem C79_editor_written (v : Nat) (g : (Editor D).Section) (t : Str) :
    (Editor D).toStr v g = t ↔ FWritten v (fun _ => [' ']) (editorView g) t :=
  (editorTabled D).write v g t

variable (D) in
/-- C79: which texts are read as a Metadata section, and what each field then holds. -/
theorem C79_metadata_read (v : Nat) (s : Str) (g : Metadata.Section) :
    Metadata.fromStr v s = .ok g ↔ ∃ es r, KVSplits s es r ∧ Blank r ∧ FReads v es (metadataView D g) :=
  (metadataTabled D).read Metadata_lawful v s g

example : ∃ es r, KVSplits c!"Title:Re: start\nTags:a  b\nBeatmapID:-1" es r ∧ Blank r ∧
    FReads 14 es (metadataView Dec96 exampleMetadata) :=
  (C79_metadata_read Dec96 14 _ _).1 (C04_metadata 14 exampleMetadata exampleMetadata_ok)

variable (D) in
/-- C79: the text written for a Metadata section. -/
theorem C79_metadata_written (v : Nat) (g : Metadata.Section) (t : Str) :
    Metadata.toStr v g = t ↔ FWritten v (fun _ => []) (metadataView D g) t :=
  (metadataTabled D).write v g t

example : FWritten 14 (fun _ => []) (metadataView Dec96 exampleMetadata) c!"Title:Re: start\nTags:a  b\nBeatmapID:-1" :=
  (C79_metadata_written Dec96 14 _ _).1 (by rfl)

/-- C79: which texts are read as a Difficulty section, and what each field then holds. -/
theorem C79_difficulty_read (v : Nat) (s : Str) (g : (Difficulty D).Section) :
    (Difficulty D).fromStr v s = .ok g ↔ ∃ es r, KVSplits s es r ∧ Blank r ∧ FReads v es (difficultyView g) :=
  (difficultyTabled D).read (Difficulty_lawful D) v s g

/-- C79: the text written for a Difficulty section. -/
theorem C79_difficulty_written (v : Nat) (g : (Difficulty D).Section) (t : Str) :
    (Difficulty D).toStr v g = t ↔ FWritten v (difficultySpace v) (difficultyView g) t := by
  rw [← diffSpacing_eq]
  exact (difficultyTabled D).write v g t

theorem Tabled.names {S : Schema} (hS : S.Lawful) (T : Tabled S D) (g : S.Section) (s : Str) :
    (∀ k, S.name k ≠ s) ↔ s ∉ (T.view g).map fun p => p.1.name := by
  unfold Tabled.view
  rw [List.map_map]
  constructor
  · intro h hm
    obtain ⟨k, -, e⟩ := List.mem_map.1 hm
    exact h k ((T.name k).trans e)
  · intro h k e
    exact h (List.mem_map.2 ⟨k, hS.all k, (T.name k).symm.trans e⟩)

/-- C79: the names that are no keys of a section. With `C06_any_text_unknown`, these are the keys that are refused. -/
theorem C79_unknown (s : Str) :
    ((∀ k, (General D).name k ≠ s) ↔ s ∉ [c!"AudioFilename", c!"AudioLeadIn", c!"AudioHash", c!"PreviewTime", c!"Countdown",
      c!"SampleSet", c!"StackLeniency", c!"Mode", c!"LetterboxInBreaks", c!"StoryFireInFront", c!"UseSkinSprites",
      c!"AlwaysShowPlayfield", c!"OverlayPosition", c!"SkinPreference", c!"EpilepsyWarning", c!"CountdownOffset",
      c!"SpecialStyle", c!"WidescreenStoryboard", c!"SamplesMatchPlaybackRate", c!"EditorBookmarks",
      c!"EditorDistanceSpacing"]) ∧
    ((∀ k, (Editor D).name k ≠ s) ↔ s ∉ [c!"Bookmarks", c!"DistanceSpacing", c!"BeatDivisor", c!"GridSize", c!"TimelineZoom",
      c!"CurrentTime"]) ∧
    ((∀ k, Metadata.name k ≠ s) ↔ s ∉ [c!"Title", c!"TitleUnicode", c!"Artist", c!"ArtistUnicode", c!"Creator", c!"Version",
      c!"Source", c!"Tags", c!"BeatmapID", c!"BeatmapSetID"]) ∧
    ((∀ k, (Difficulty D).name k ≠ s) ↔ s ∉ [c!"HPDrainRate", c!"CircleSize", c!"OverallDifficulty", c!"ApproachRate",
      c!"SliderMultiplier", c!"SliderTickRate"]) :=
  ⟨(generalTabled D).names (General_lawful D) (fun _ => none) s, (editorTabled D).names (Editor_lawful D) (fun _ => none) s,
   (metadataTabled D).names Metadata_lawful (fun _ => none) s,
   (difficultyTabled D).names (Difficulty_lawful D) (fun _ => none) s⟩

end

/-- A General section with some fields. -/
def someGeneral : (General Dec96).Section := fun k => match k with
  | .audioLeadIn => some (-5 : Int32)
  | .mode => some .mania
  | .epilepsyWarning => some true
  | .editorBookmarks => some [1, 20]
  | _ => none

example : (General Dec96).toStr 14 someGeneral = c!"AudioLeadIn: -5\nMode: 3\nEpilepsyWarning: 1" := by rfl

example : FWritten 14 (fun _ => [' ']) (generalView someGeneral) c!"AudioLeadIn: -5\nMode: 3\nEpilepsyWarning: 1" :=
  (C79_general_written 14 someGeneral _).1 (by rfl)

example : (General Dec96).fromStr 5 c!"EpilepsyWarning:+1\nEditorBookmarks:1,020" =
    .ok (fun k => match k with
      | .epilepsyWarning => some true
      | .editorBookmarks => some [1, 20]
      | _ => none) := by
  have h : ∀ x y : Res (LErr (KVErr FieldErr)) (General Dec96).Section,
      (match x, y with | .ok a, .ok b => ∀ k, a k = b k | _, _ => False) → x = y := by
    intro x y h
    cases x <;> cases y <;> first | exact h.elim | (congr 1; funext k; exact h k)
  apply h
  intro k
  cases k <;> rfl

/-- A Difficulty section with a value that is no number. -/
def oddDifficulty : (Difficulty Dec96).Section := fun k => match k with
  | .sliderTickRate => some (.right c!"SliderTickRate")
  | .circleSize => some (.right c!"x")
  | _ => none

example : FWritten 4 (difficultySpace 4) (difficultyView oddDifficulty) c!"CircleSize:x\nSliderTickRate: SliderTickRate" :=
  (C79_difficulty_written 4 oddDifficulty _).1 (by rfl)

example : ∃ es r, KVSplits c!"AudioLeadIn: -5\nMode: 3\nEpilepsyWarning: 1" es r ∧ Blank r ∧
    FReads 14 es (generalView (D := Dec96) (restrict (GKey.existsIn 14) someGeneral)) :=
  (C79_general_read (D := Dec96) 14 _ _).1 (C04_general 14 someGeneral fun k x h => by
    cases k <;> simp only [someGeneral] at h <;> cases h <;> trivial)

def someEditor : (Editor Dec96).Section := fun k => match k with
  | .bookmarks => some [1, -2]
  | .currentTime => some (7 : Int32)
  | _ => none

example : FWritten 10 (fun _ => [' ']) (editorView someEditor) c!"Bookmarks: 1,-2\nCurrentTime: 7" :=
  (C79_editor_written 10 someEditor _).1 (by rfl)

example : ∃ es r, KVSplits c!"Bookmarks: 1,-2" es r ∧ Blank r ∧
    FReads 14 es (editorView (D := Dec96) (restrict (EKey.existsIn 14) someEditor)) :=
  (C79_editor_read (D := Dec96) 14 _ _).1 (C04_editor 14 someEditor fun k x h => by
    cases k <;> simp only [someEditor] at h <;> cases h <;> trivial)

example : ∃ es r, KVSplits c!"CircleSize:x\nSliderTickRate:SliderTickRate" es r ∧ Blank r ∧
    FReads 14 es (difficultyView (D := Dec96) oddDifficulty) :=
  (C79_difficulty_read (D := Dec96) 14 _ _).1 (C04_difficulty 14 oddDifficulty fun k x h => by
    cases k <;> simp only [oddDifficulty] at h <;> cases h <;> exact ⟨by decide, by decide⟩)

end Osu
