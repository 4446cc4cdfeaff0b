/-
C01 integers, C02 decimals, C03 file paths, C09 booleans.
-/
import Verif.Model.Types
import Verif.Proof.Fields
import Verif.Proof.Dec96

namespace Osu
open Parser

/-! ## Specification -/

/-- Value of a string of decimal digits. -/
def decVal (ds : Str) : Nat := ds.foldl (fun a c => a * 10 + (c.toNat - 48)) 0

/-- `s` is a signed decimal numeral with value `n`: optional sign, at least one digit. -/
def IsNumeral (s : Str) (n : Int) : Prop :=
  ∃ ds : Str, ds ≠ [] ∧ AllC isDig ds ∧
    ((s = ds ∧ n = decVal ds) ∨ (s = '+' :: ds ∧ n = decVal ds) ∨ (s = '-' :: ds ∧ n = -(decVal ds : Int)))

/-- `s` is an unsigned decimal numeral with value `n`. -/
def IsUNumeral (s : Str) (n : Nat) : Prop :=
  ∃ ds : Str, ds ≠ [] ∧ AllC isDig ds ∧ ((s = ds ∧ n = decVal ds) ∨ (s = '+' :: ds ∧ n = decVal ds))

/-! ## Lemmas -/

theorem decVal_foldl_le (ds : Str) (a : Nat) : a ≤ ds.foldl (fun a c => a * 10 + (c.toNat - 48)) a := by
  induction ds generalizing a with
  | nil => exact Nat.le_refl _
  | cons c ds ih => exact Nat.le_trans (by show a ≤ a * 10 + (c.toNat - 48); omega) (ih _)

theorem parseDigits_ok_iff (ov : IntErr) (max : Nat) (s : Str) (acc m : Nat) (hacc : acc ≤ max) :
    parseDigits ov max acc s = .ok m ↔
      AllC isDig s ∧ m = s.foldl (fun a c => a * 10 + (c.toNat - 48)) acc ∧ m ≤ max := by
  induction s generalizing acc with
  | nil =>
    simp only [parseDigits, List.foldl_nil]
    constructor
    · intro h; cases h; exact ⟨.nil, rfl, hacc⟩
    · rintro ⟨_, rfl, _⟩; rfl
  | cons c s ih =>
    rw [parseDigits]
    by_cases hc : 48 ≤ c.toNat ∧ c.toNat ≤ 57
    · have hd : digitVal c = some (c.toNat - 48) := by unfold digitVal; rw [if_pos hc]
      simp only [hd]
      split
      · rename_i hlt
        constructor
        · intro h; cases h
        · rintro ⟨_, rfl, h⟩
          have := decVal_foldl_le s (acc * 10 + (c.toNat - 48))
          simp only [List.foldl_cons] at h
          omega
      · rename_i hlt
        rw [ih _ (by omega)]
        constructor
        · rintro ⟨h1, h2, h3⟩
          exact ⟨.cons (by simp [isDig, hd]) h1, by simpa using h2, h3⟩
        · rintro ⟨h1, h2, h3⟩
          exact ⟨h1.of_cons.2, by simpa using h2, h3⟩
    · have hd : digitVal c = none := by unfold digitVal; rw [if_neg hc]
      simp only [hd]
      constructor
      · intro h; cases h
      · rintro ⟨h1, _⟩
        have := h1.of_cons.1
        simp [isDig, hd] at this

theorem not_dig_plus : isDig '+' = false := by decide
theorem not_dig_minus : isDig '-' = false := by decide

theorem parseUnsigned_ok_iff (max : Nat) (s : Str) (n : Nat) :
    parseUnsigned max s = .ok n ↔ IsUNumeral s n ∧ n ≤ max := by
  cases s with
  | nil =>
    constructor
    · intro h; cases h
    · rintro ⟨⟨ds, h1, _, h⟩, _⟩
      rcases h with ⟨rfl, _⟩ | ⟨h, _⟩
      · exact absurd rfl h1
      · cases h
  | cons c r =>
    unfold parseUnsigned
    simp only
    by_cases hr : (c = '+' ∨ c = '-') ∧ r = []
    · rw [if_pos hr]
      constructor
      · intro h; cases h
      · rintro ⟨⟨ds, h1, h2, h⟩, _⟩
        rcases h with ⟨rfl, _⟩ | ⟨h, _⟩
        · have := h2.of_cons.1
          rcases hr.1 with rfl | rfl
          · rw [not_dig_plus] at this; cases this
          · rw [not_dig_minus] at this; cases this
        · cases h; exact absurd hr.2 h1
    · rw [if_neg hr]
      by_cases hp : c = '+'
      · subst hp
        have hrn : r ≠ [] := fun e => hr ⟨.inl rfl, e⟩
        simp only [if_true]
        rw [parseDigits_ok_iff _ _ _ _ _ (Nat.zero_le _)]
        constructor
        · rintro ⟨h1, h2, h3⟩; exact ⟨⟨r, hrn, h1, .inr ⟨rfl, h2⟩⟩, h3⟩
        · rintro ⟨⟨ds, h1, h2, h⟩, h3⟩
          rcases h with ⟨rfl, _⟩ | ⟨h, h'⟩
          · have := h2.of_cons.1; rw [not_dig_plus] at this; cases this
          · cases h; exact ⟨h2, h', h3⟩
      · rw [if_neg hp, parseDigits_ok_iff _ _ _ _ _ (Nat.zero_le _)]
        constructor
        · rintro ⟨h1, h2, h3⟩; exact ⟨⟨c :: r, by simp, h1, .inl ⟨rfl, h2⟩⟩, h3⟩
        · rintro ⟨⟨ds, h1, h2, h⟩, h3⟩
          rcases h with ⟨rfl, h'⟩ | ⟨h, h'⟩
          · exact ⟨h2, h', h3⟩
          · cases h; exact absurd rfl hp

theorem parseSigned_ok_iff (max : Nat) (s : Str) (n : Int) :
    parseSigned max s = .ok n ↔ IsNumeral s n ∧ -((max : Int) + 1) ≤ n ∧ n ≤ max := by
  cases s with
  | nil =>
    constructor
    · intro h; cases h
    · rintro ⟨⟨ds, h1, _, h⟩, _⟩
      rcases h with ⟨rfl, _⟩ | ⟨h, _⟩ | ⟨h, _⟩
      · exact absurd rfl h1
      · cases h
      · cases h
  | cons c r =>
    unfold parseSigned
    simp only
    by_cases hr : (c = '+' ∨ c = '-') ∧ r = []
    · rw [if_pos hr]
      constructor
      · intro h; cases h
      · rintro ⟨⟨ds, h1, h2, h⟩, _⟩
        rcases h with ⟨rfl, _⟩ | ⟨h, _⟩ | ⟨h, _⟩
        · have := h2.of_cons.1
          rcases hr.1 with rfl | rfl
          · rw [not_dig_plus] at this; cases this
          · rw [not_dig_minus] at this; cases this
        · cases h; exact absurd hr.2 h1
        · cases h; exact absurd hr.2 h1
    · rw [if_neg hr]
      have key : ∀ (ov : IntErr) (mx : Nat) (t : Str) (f : Nat → Int),
          ((parseDigits ov mx 0 t).bind fun m => Res.ok (f m)) = .ok n ↔
            ∃ m, AllC isDig t ∧ m = decVal t ∧ m ≤ mx ∧ f m = n := by
        intro ov mx t f
        constructor
        · intro h
          cases hp : parseDigits ov mx 0 t with
          | ok m =>
            rw [hp] at h
            rw [parseDigits_ok_iff _ _ _ _ _ (Nat.zero_le _)] at hp
            refine ⟨m, hp.1, hp.2.1, hp.2.2, ?_⟩
            simpa [Res.bind] using h
          | err e => rw [hp] at h; cases h
          | panic => rw [hp] at h; cases h
        · rintro ⟨m, h1, h2, h3, h4⟩
          rw [(parseDigits_ok_iff ov mx t 0 m (Nat.zero_le _)).2 ⟨h1, h2, h3⟩]
          simp [Res.bind, h4]
      by_cases hp : c = '+'
      · subst hp
        have hrn : r ≠ [] := fun e => hr ⟨.inl rfl, e⟩
        simp only [if_true]
        rw [key]
        constructor
        · rintro ⟨m, h1, h2, h3, rfl⟩
          exact ⟨⟨r, hrn, h1, .inr (.inl ⟨rfl, by rw [h2]⟩)⟩, by omega, by omega⟩
        · rintro ⟨⟨ds, h1, h2, h⟩, h3⟩
          rcases h with ⟨rfl, _⟩ | ⟨h, h'⟩ | ⟨h, h'⟩
          · have := h2.of_cons.1; rw [not_dig_plus] at this; cases this
          · cases h; exact ⟨_, h2, rfl, by omega, h'.symm⟩
          · cases h
      · rw [if_neg hp]
        by_cases hm : c = '-'
        · subst hm
          have hrn : r ≠ [] := fun e => hr ⟨.inr rfl, e⟩
          simp only [if_true]
          rw [key]
          constructor
          · rintro ⟨m, h1, h2, h3, rfl⟩
            exact ⟨⟨r, hrn, h1, .inr (.inr ⟨rfl, by rw [h2]⟩)⟩, by omega, by omega⟩
          · rintro ⟨⟨ds, h1, h2, h⟩, h3⟩
            rcases h with ⟨rfl, _⟩ | ⟨h, h'⟩ | ⟨h, h'⟩
            · have := h2.of_cons.1; rw [not_dig_minus] at this; cases this
            · cases h
            · cases h; exact ⟨_, h2, rfl, by omega, h'.symm⟩
        · rw [if_neg hm, key]
          constructor
          · rintro ⟨m, h1, h2, h3, rfl⟩
            exact ⟨⟨c :: r, by simp, h1, .inl ⟨rfl, by rw [h2]⟩⟩, by omega, by omega⟩
          · rintro ⟨⟨ds, h1, h2, h⟩, h3⟩
            rcases h with ⟨rfl, h'⟩ | ⟨h, h'⟩ | ⟨h, h'⟩
            · exact ⟨_, h2, rfl, by omega, h'.symm⟩
            · cases h; exact absurd rfl hp
            · cases h; exact absurd rfl hm

/-! ## C01 -/

/-- C01: every `i32` the library writes is read back as the same number. -/
theorem C01_i32_roundtrip (n : Int32) : parseI32 (i32ToStr n) = .ok n := parseI32_i32ToStr n

example : parseI32 (i32ToStr (-2147483648)) = .ok (-2147483648) := C01_i32_roundtrip _

/-- C01: same for `u8`. -/
theorem C01_u8_roundtrip (n : UInt8) : parseU8 (u8ToStr n) = .ok n := parseU8_u8ToStr n

example : parseU8 (u8ToStr 255) = .ok 255 := C01_u8_roundtrip _

/-- C01: same for `u32`. -/
theorem C01_u32_roundtrip (n : UInt32) : parseU32 (u32ToStr n) = .ok n := parseU32_u32ToStr n

example : parseU32 (u32ToStr 4294967295) = .ok 4294967295 := C01_u32_roundtrip _

/-- C01: same for `usize`. -/
theorem C01_usize_roundtrip (n : UInt64) : parseUsize (usizeToStr n) = .ok n := parseUsize_usizeToStr n

example : parseUsize (usizeToStr 18446744073709551615) = .ok 18446744073709551615 := C01_usize_roundtrip _

/-- C01: a text is accepted as an `i32` exactly when it is a numeral whose value is the result
(which, being an `i32`, is in range). -/
theorem C01_i32_accepts (s : Str) (n : Int32) : parseI32 s = .ok n ↔ IsNumeral s n.toInt := by
  have hn := n.toInt_le
  have hmax : Int32.maxValue.toInt = 2147483647 := by decide
  have hn' := n.le_toInt
  have hb : ∀ m : Int, -2147483648 ≤ m → m ≤ 2147483647 → (Int32.ofInt m).toInt = m := by
    intro m h1 h2
    exact Int32.toInt_ofInt_of_le (by simpa using h1) (by omega)
  unfold parseI32
  constructor
  · intro h
    cases hp : parseSigned 2147483647 s with
    | ok m =>
      rw [hp] at h
      simp only [Res.bind, Res.ok.injEq] at h
      rw [parseSigned_ok_iff] at hp
      rw [← h, hb m (by omega) (by omega)]
      exact hp.1
    | err e => rw [hp] at h; cases h
    | panic => rw [hp] at h; cases h
  · intro h
    have : parseSigned 2147483647 s = .ok n.toInt := by
      rw [parseSigned_ok_iff]
      exact ⟨h, by omega, by omega⟩
    rw [this]
    simp [Res.bind]

example : parseI32 c!"-042" = .ok (-42) := (C01_i32_accepts _ _).2 ⟨c!"042", by decide, by decide, .inr (.inr ⟨rfl, by decide⟩)⟩

/-- C01: a text is accepted as a `usize` exactly when it is an unsigned numeral of that value. -/
theorem C01_usize_accepts (s : Str) (n : UInt64) : parseUsize s = .ok n ↔ IsUNumeral s n.toNat := by
  have hn := n.toNat_lt
  unfold parseUsize
  constructor
  · intro h
    cases hp : parseUnsigned 18446744073709551615 s with
    | ok m =>
      rw [hp] at h
      simp only [Res.bind, Res.ok.injEq] at h
      rw [parseUnsigned_ok_iff] at hp
      rw [← h, UInt64.toNat_ofNat_of_lt' (by have := hp.2; simp [UInt64.size]; omega)]
      exact hp.1
    | err e => rw [hp] at h; cases h
    | panic => rw [hp] at h; cases h
  · intro h
    have : parseUnsigned 18446744073709551615 s = .ok n.toNat := by
      rw [parseUnsigned_ok_iff]
      exact ⟨h, by omega⟩
    rw [this]
    simp [Res.bind]

example : parseUsize c!"+007" = .ok 7 := (C01_usize_accepts _ _).2 ⟨c!"007", by decide, by decide, .inr ⟨rfl, by decide⟩⟩

/-- C01: same for `u8`. -/
theorem C01_u8_accepts (s : Str) (n : UInt8) : parseU8 s = .ok n ↔ IsUNumeral s n.toNat := by
  have hn := n.toNat_lt
  unfold parseU8
  constructor
  · intro h
    cases hp : parseUnsigned 255 s with
    | ok m =>
      rw [hp] at h
      simp only [Res.bind, Res.ok.injEq] at h
      rw [parseUnsigned_ok_iff] at hp
      rw [← h, UInt8.toNat_ofNat_of_lt' (by have := hp.2; simp [UInt8.size]; omega)]
      exact hp.1
    | err e => rw [hp] at h; cases h
    | panic => rw [hp] at h; cases h
  · intro h
    have : parseUnsigned 255 s = .ok n.toNat := by
      rw [parseUnsigned_ok_iff]
      exact ⟨h, by omega⟩
    rw [this]
    simp [Res.bind]

example : parseU8 c!"0255" = .ok 255 := (C01_u8_accepts _ _).2 ⟨c!"0255", by decide, by decide, .inl ⟨rfl, by decide⟩⟩

/-- C01: same for `u32`. -/
theorem C01_u32_accepts (s : Str) (n : UInt32) : parseU32 s = .ok n ↔ IsUNumeral s n.toNat := by
  have hn := n.toNat_lt
  unfold parseU32
  constructor
  · intro h
    cases hp : parseUnsigned 4294967295 s with
    | ok m =>
      rw [hp] at h
      simp only [Res.bind, Res.ok.injEq] at h
      rw [parseUnsigned_ok_iff] at hp
      rw [← h, UInt32.toNat_ofNat_of_lt' (by have := hp.2; simp [UInt32.size]; omega)]
      exact hp.1
    | err e => rw [hp] at h; cases h
    | panic => rw [hp] at h; cases h
  · intro h
    have : parseUnsigned 4294967295 s = .ok n.toNat := by
      rw [parseUnsigned_ok_iff]
      exact ⟨h, by omega⟩
    rw [this]
    simp [Res.bind]

example : parseU32 c!"+12" = .ok 12 := (C01_u32_accepts _ _).2 ⟨c!"12", by decide, by decide, .inr ⟨rfl, by decide⟩⟩

/-- C01: distinct integers have distinct texts. -/
theorem C01_i32_injective (a b : Int32) (h : i32ToStr a = i32ToStr b) : a = b := i32ToStr_inj h

example : parseI32 c!"-2147483648" = .ok (-2147483648) := by decide
example : parseI32 c!"2147483648" = .err .posOverflow := by decide
example : parseI32 c!"+7" = .ok 7 := by decide
example : parseU8 c!"256" = .err .posOverflow := by decide
example : parseUsize c!"-1" = .err .invalidDigit := by decide
example : IsNumeral c!"-042" (-42) := ⟨c!"042", by decide, by decide, .inr (.inr ⟨rfl, by decide⟩)⟩

/-! ## C02 -/

section
variable {D : Type} [DecLib D]

/-- C02: reading a decimal never fails. -/
theorem C02_never_fails (s : Str) : ∃ d : Decimal D, Decimal.parse s = .ok d := ⟨_, rfl⟩

example : ∃ d : Decimal Dec96, Decimal.parse c!"1.5e" = .ok d := C02_never_fails _

/-- C02: text that is not a number is kept unchanged. -/
theorem C02_keeps_text (s : Str) (h : (DecLib.parse s : Option D) = none) :
    ∃ d : Decimal D, Decimal.parse s = .ok d ∧ d.toStr = s :=
  ⟨_, rfl, Decimal.toStr_of_none h⟩

example : ∃ d : Decimal Dec96, Decimal.parse c!" 1,5 " = .ok d ∧ d.toStr = c!" 1,5 " := C02_keeps_text c!" 1,5 " (by decide)

/-- C02: reading what was printed for a parsed decimal gives that decimal. -/
theorem C02_print_parse (s : Str) (d : Decimal D) (h : Decimal.parse s = .ok d) :
    Decimal.parse d.toStr = .ok d := by
  cases h
  exact congrArg Res.ok (Decimal.ofStr_toStr (Decimal.ofStr_WF s))

example : Decimal.parse (Decimal.left (⟨true, 150, 2⟩ : Dec96)).toStr = .ok (Decimal.left (⟨true, 150, 2⟩ : Dec96)) :=
  C02_print_parse c!"-01.50" _ (by decide)

/-- C02: printing is stable after one pass. -/
theorem C02_stable (s : Str) : ((Decimal.ofStr (Decimal.ofStr s : Decimal D).toStr) : Decimal D).toStr =
    (Decimal.ofStr s : Decimal D).toStr := by
  rw [Decimal.ofStr_toStr (Decimal.ofStr_WF s)]

example : (Decimal.ofStr (Decimal.ofStr c!"007.50" : Decimal Dec96).toStr : Decimal Dec96).toStr = c!"7.50" :=
  (C02_stable c!"007.50").trans (by decide)

/-- C02: `try_make_decimal` turns text into a number exactly when it is one, and otherwise changes nothing. -/
theorem C02_try_make (s : Str) :
    (∀ d : D, DecLib.parse s = some d → Decimal.tryMakeDecimal (.right s) = (.left d, true)) ∧
    ((DecLib.parse s : Option D) = none → Decimal.tryMakeDecimal (.right s : Decimal D) = (.right s, false)) := by
  constructor
  · intro d h; simp [Decimal.tryMakeDecimal, h]
  · intro h; simp [Decimal.tryMakeDecimal, h]

end

example : (Decimal.ofStr c!"1e4x" : Decimal Dec96) = .right c!"1e4x" := by decide
example : (Decimal.ofStr c!"0.70" : Decimal Dec96) = .left ⟨false, 70, 2⟩ := by decide
example : (Decimal.ofStr c!"007.5" : Decimal Dec96).toStr = c!"7.5" := by decide

/-! ## C03 -/

/-- The path needs quotes: it has a blank and is not already quoted. -/
def NeedsQuotes (p : Str) : Prop := ' ' ∈ p ∧ ¬ (p.head? = some '"' ∧ p.getLast? = some '"')

theorem contains_char (c : Char) (s : Str) : contains [c] s = true ↔ c ∈ s := by
  induction s with
  | nil => simp [contains]
  | cons d s ih =>
    rw [contains, Bool.or_eq_true, ih, List.mem_cons]
    simp [List.isPrefixOf]

theorem startsWith_char (c : Char) (s : Str) : startsWith s [c] = true ↔ s.head? = some c := by
  cases s with
  | nil => simp [startsWith, List.isPrefixOf]
  | cons d s =>
    simp only [startsWith, List.isPrefixOf, Bool.and_true, beq_iff_eq, List.head?_cons, Option.some.injEq]
    exact eq_comm

theorem endsWith_char (c : Char) (s : Str) : endsWith s [c] = true ↔ s.getLast? = some c := by
  unfold endsWith List.isSuffixOf
  rw [List.reverse_singleton]
  have := startsWith_char c s.reverse
  unfold startsWith at this
  rw [this, List.head?_reverse]

theorem quotes_iff (p : Str) :
    (contains [' '] p && !(startsWith p ['"'] && endsWith p ['"'])) = true ↔ NeedsQuotes p := by
  unfold NeedsQuotes
  rw [Bool.and_eq_true, contains_char, Bool.not_eq_true', ← startsWith_char, ← endsWith_char]
  cases startsWith p ['"'] <;> cases endsWith p ['"'] <;> simp

/-- C03: quotes are added exactly when needed; otherwise the path is printed as it is. -/
theorem C03_print (p : FilePath) :
    (NeedsQuotes p → FilePath.toStr p = '"' :: (p ++ ['"'])) ∧ (¬ NeedsQuotes p → FilePath.toStr p = p) := by
  unfold FilePath.toStr
  constructor
  · intro h; simp only [(quotes_iff p).2 h, if_true]
  · intro h
    have : ¬ ((contains [' '] p && !(startsWith p ['"'] && endsWith p ['"'])) = true) := fun h' => h ((quotes_iff p).1 h')
    simp only
    rw [if_neg this]

example : FilePath.toStr c!"a b.png" = c!"\"a b.png\"" ∧ FilePath.toStr c!"\"a b.png\"" = c!"\"a b.png\"" :=
  ⟨(C03_print c!"a b.png").1 (by unfold NeedsQuotes; decide), (C03_print c!"\"a b.png\"").2 (by unfold NeedsQuotes; decide)⟩

/-- C03: a printed path never needs quotes, so reading it and printing again changes nothing. -/
theorem C03_stable (p : FilePath) : FilePath.toStr (FilePath.toStr p) = FilePath.toStr p := by
  refine (C03_print (FilePath.toStr p)).2 ?_
  by_cases h : NeedsQuotes p
  · rw [(C03_print p).1 h]
    rintro ⟨_, h'⟩
    exact h' ⟨rfl, by rw [← List.cons_append, List.getLast?_append]; rfl⟩
  · rw [(C03_print p).2 h]; exact h

example : FilePath.toStr (FilePath.toStr c!"a b.png") = c!"\"a b.png\"" := (C03_stable c!"a b.png").trans (by decide)

/-- C03: printing keeps paths apart unless one is the quoted form of the other. -/
theorem C03_injective (p q : FilePath) (h : FilePath.toStr p = FilePath.toStr q) :
    p = q ∨ p = '"' :: (q ++ ['"']) ∨ q = '"' :: (p ++ ['"']) := by
  by_cases hp : NeedsQuotes p <;> by_cases hq : NeedsQuotes q
  · rw [(C03_print p).1 hp, (C03_print q).1 hq] at h
    left
    simpa using h
  · rw [(C03_print p).1 hp, (C03_print q).2 hq] at h
    exact .inr (.inr h.symm)
  · rw [(C03_print p).2 hp, (C03_print q).1 hq] at h
    exact .inr (.inl h)
  · rw [(C03_print p).2 hp, (C03_print q).2 hq] at h
    exact .inl h

example : FilePath.toStr c!"a b.png" = c!"\"a b.png\"" := by decide
example : FilePath.toStr c!"\"a b.png\"" = c!"\"a b.png\"" := by decide
example : FilePath.toStr c!"a b\"" = c!"\"a b\"\"" := by decide

/-! ## C09 -/

/-- C09: a 0/1 field reads exactly the numerals of value zero and one. -/
theorem C09_accepts (s : Str) (b : Bool) :
    parseZeroOneBool s = .ok b ↔ IsNumeral s (if b then 1 else 0) := by
  have h0 : (0 : Int32).toInt = 0 := by decide
  have h1 : (1 : Int32).toInt = 1 := by decide
  unfold parseZeroOneBool
  cases hp : parseI32 s with
  | ok n =>
    have hn := (C01_i32_accepts s n).1 hp
    simp only
    have back : ∀ m : Int32, IsNumeral s m.toInt → n = m := by
      intro m hm
      have := (C01_i32_accepts s m).2 hm
      rw [hp] at this; cases this; rfl
    by_cases e0 : n = 0
    · subst e0
      simp only [if_true]
      rw [h0] at hn
      cases b with
      | false => simp [hn]
      | true =>
        constructor
        · intro h; cases h
        · intro h
          have := back 1 (by rw [h1]; exact h)
          exact absurd this (by decide)
    · by_cases e1 : n = 1
      · subst e1
        simp only [e0, if_false, if_true]
        rw [h1] at hn
        cases b with
        | true => simp [hn]
        | false =>
          constructor
          · intro h; cases h
          · intro h
            have := back 0 (by rw [h0]; exact h)
            exact absurd this (by decide)
      · simp only [e0, e1, if_false]
        constructor
        · intro h; cases h
        · intro h
          cases b with
          | false => exact absurd (back 0 (by rw [h0]; exact h)) e0
          | true => exact absurd (back 1 (by rw [h1]; exact h)) e1
  | err e =>
    constructor
    · intro h; cases h
    · intro h
      have : ∃ m : Int32, IsNumeral s m.toInt := by
        cases b with
        | false => exact ⟨0, by rw [h0]; exact h⟩
        | true => exact ⟨1, by rw [h1]; exact h⟩
      obtain ⟨m, hm⟩ := this
      rw [(C01_i32_accepts s m).2 hm] at hp; cases hp
  | panic => exact absurd hp (parseI32_no_panic s)

example : parseZeroOneBool c!"+01" = .ok true :=
  (C09_accepts _ _).2 ⟨c!"01", by decide, by decide, .inr (.inl ⟨rfl, by decide⟩)⟩

/-- C09: printing then reading a boolean. -/
theorem C09_roundtrip (b : Bool) : parseZeroOneBool (boolToStr b) = .ok b := parseZeroOneBool_boolToStr b

example : parseZeroOneBool (boolToStr false) = .ok false := C09_roundtrip _

/-- C09: never a panic. -/
theorem C09_no_panic (s : Str) : parseZeroOneBool s ≠ .panic := by
  unfold parseZeroOneBool
  cases hp : parseI32 s with
  | ok n => simp only; split; · simp
            · split <;> simp
  | err e => simp
  | panic => exact absurd hp (parseI32_no_panic s)

example : parseZeroOneBool c!"+01" = .ok true := by decide
example : parseZeroOneBool c!"2" = .err .invalidValue := by decide
example : parseZeroOneBool c!"-0" = .ok false := by decide

end Osu
