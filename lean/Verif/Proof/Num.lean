/-
Lemmas about integer parsing and printing.
-/
import Verif.Basic.Num

namespace Osu

theorem parseDigits_append (ov : IntErr) (max : Nat) (s t : Str) : ∀ acc,
    parseDigits ov max acc (s ++ t) = (parseDigits ov max acc s).bind fun a => parseDigits ov max a t := by
  induction s with
  | nil => intro acc; rfl
  | cons c s ih =>
    intro acc
    simp only [List.cons_append, parseDigits]
    cases digitVal c with
    | none => rfl
    | some d =>
      simp only
      split
      · rfl
      · exact ih _

theorem digitVal_digitChar {d : Nat} (h : d < 10) : digitVal (digitChar d) = some d := by
  have : ∀ d : Fin 10, digitVal (digitChar d) = some d.val := by decide
  exact this ⟨d, h⟩

theorem natToStrF_eq (f n : Nat) (h : n ≤ f) :
    natToStrF f n = if n < 10 then [digitChar n] else natToStrF (n / 10) (n / 10) ++ [digitChar (n % 10)] := by
  have key : ∀ f g n, n ≤ f → n ≤ g → natToStrF f n = natToStrF g n := by
    intro f
    induction f with
    | zero =>
      intro g n h1 h2
      have : n = 0 := by omega
      subst this
      cases g with
      | zero => rfl
      | succ g => simp [natToStrF]
    | succ f ih =>
      intro g n h1 h2
      cases g with
      | zero =>
        have : n = 0 := by omega
        subst this
        simp [natToStrF]
      | succ g =>
        simp only [natToStrF]
        split
        · rfl
        · rw [ih g (n / 10) (by omega) (by omega)]
  cases f with
  | zero =>
    have : n = 0 := by omega
    subst this
    rfl
  | succ f =>
    rw [natToStrF]
    split
    · rfl
    · rw [key f (n / 10) (n / 10) (by omega) (by omega)]

theorem natToStr_eq (n : Nat) :
    natToStr n = if n < 10 then [digitChar n] else natToStr (n / 10) ++ [digitChar (n % 10)] :=
  natToStrF_eq n n (Nat.le_refl n)

theorem parseDigits_natToStr (ov : IntErr) (max : Nat) (n : Nat) (h : n ≤ max) :
    parseDigits ov max 0 (natToStr n) = .ok n := by
  induction n using Nat.strongRecOn with
  | _ n ih =>
    rw [natToStr_eq]
    split
    · rename_i hn
      simp only [parseDigits, digitVal_digitChar hn]
      split
      · omega
      · simp
    · rename_i hn
      rw [parseDigits_append, ih (n / 10) (by omega) (by omega)]
      simp only [Res.bind, parseDigits, digitVal_digitChar (show n % 10 < 10 by omega)]
      have : n / 10 * 10 + n % 10 = n := by omega
      rw [this]
      split
      · omega
      · rfl

/-- All characters of a printed natural number are ASCII digits. -/
theorem natToStr_digits (n : Nat) : ∀ c ∈ natToStr n, (digitVal c).isSome := by
  induction n using Nat.strongRecOn with
  | _ n ih =>
    rw [natToStr_eq]
    split
    · rename_i hn
      intro c hc
      simp only [List.mem_singleton] at hc
      rw [hc, digitVal_digitChar hn]; rfl
    · rename_i hn
      intro c hc
      simp only [List.mem_append, List.mem_singleton] at hc
      rcases hc with hc | hc
      · exact ih _ (by omega) c hc
      · rw [hc, digitVal_digitChar (by omega)]; rfl

theorem natToStr_ne_nil (n : Nat) : natToStr n ≠ [] := by
  rw [natToStr_eq]; split <;> simp

/-- The first character of a printed natural number, with the rest. -/
theorem natToStr_cons (n : Nat) : ∃ c r, natToStr n = c :: r ∧ (digitVal c).isSome := by
  cases h : natToStr n with
  | nil => exact absurd h (natToStr_ne_nil n)
  | cons c r => exact ⟨c, r, rfl, natToStr_digits n c (by rw [h]; exact List.mem_cons_self)⟩

theorem digitVal_ne {c d : Char} (h : (digitVal c).isSome) (hd : digitVal d = none) : c ≠ d := by
  intro e; subst e; rw [hd] at h; cases h

theorem parseUnsigned_natToStr (max n : Nat) (h : n ≤ max) : parseUnsigned max (natToStr n) = .ok n := by
  obtain ⟨c, r, e, hc⟩ := natToStr_cons n
  have h1 : c ≠ '+' := digitVal_ne hc (by decide)
  have h2 : c ≠ '-' := digitVal_ne hc (by decide)
  have h3 := parseDigits_natToStr .posOverflow max n h
  rw [e] at h3 ⊢
  simp [parseUnsigned, h1, h2, h3]

theorem parseSigned_intToStr (max : Nat) (n : Int) (h1 : -(max + 1 : Int) ≤ n) (h2 : n ≤ max) :
    parseSigned max (intToStr n) = .ok n := by
  unfold intToStr
  split
  · rename_i hn
    have h3 := parseDigits_natToStr .negOverflow (max + 1) n.natAbs (by omega)
    have : ¬ natToStr n.natAbs = [] := natToStr_ne_nil _
    simp [parseSigned, h3, this, Res.bind]
    omega
  · rename_i hn
    obtain ⟨c, r, e, hc⟩ := natToStr_cons n.natAbs
    have h1 : c ≠ '+' := digitVal_ne hc (by decide)
    have h2 : c ≠ '-' := digitVal_ne hc (by decide)
    have h3 := parseDigits_natToStr .posOverflow max n.natAbs (by omega)
    rw [e] at h3 ⊢
    simp [parseSigned, h1, h2, h3, Res.bind]
    omega

theorem parseI32_i32ToStr (n : Int32) : parseI32 (i32ToStr n) = .ok n := by
  have h1 := Int32.le_toInt n
  have h2 := Int32.toInt_lt n
  unfold parseI32 i32ToStr
  rw [parseSigned_intToStr _ _ (by omega) (by omega)]
  simp [Res.bind]

theorem parseU8_u8ToStr (n : UInt8) : parseU8 (u8ToStr n) = .ok n := by
  have h2 := UInt8.toNat_lt n
  unfold parseU8 u8ToStr
  rw [parseUnsigned_natToStr _ _ (by omega)]
  simp [Res.bind]

theorem parseU32_u32ToStr (n : UInt32) : parseU32 (u32ToStr n) = .ok n := by
  have h2 := UInt32.toNat_lt n
  unfold parseU32 u32ToStr
  rw [parseUnsigned_natToStr _ _ (by omega)]
  simp [Res.bind]

theorem parseUsize_usizeToStr (n : UInt64) : parseUsize (usizeToStr n) = .ok n := by
  have h2 := UInt64.toNat_lt n
  unfold parseUsize usizeToStr
  rw [parseUnsigned_natToStr _ _ (by omega)]
  simp [Res.bind]

/-- Characters that a printed integer can contain. -/
def isIntChar (c : Char) : Bool := (digitVal c).isSome || c == '-'

theorem intToStr_chars (n : Int) : ∀ c ∈ intToStr n, isIntChar c = true := by
  unfold intToStr isIntChar
  intro c hc
  split at hc
  · rcases List.mem_cons.1 hc with rfl | hc
    · decide
    · simp [natToStr_digits _ c hc]
  · simp [natToStr_digits _ c hc]

theorem i32ToStr_chars (n : Int32) : ∀ c ∈ i32ToStr n, isIntChar c = true := intToStr_chars _

theorem natToStr_chars (n : Nat) : ∀ c ∈ natToStr n, isIntChar c = true := by
  intro c hc; simp [isIntChar, natToStr_digits _ c hc]

theorem intToStr_ne_nil (n : Int) : intToStr n ≠ [] := by
  unfold intToStr; split
  · simp
  · exact natToStr_ne_nil _

theorem i32ToStr_ne_nil (n : Int32) : i32ToStr n ≠ [] := intToStr_ne_nil _
theorem u8ToStr_ne_nil (n : UInt8) : u8ToStr n ≠ [] := natToStr_ne_nil _
theorem u32ToStr_ne_nil (n : UInt32) : u32ToStr n ≠ [] := natToStr_ne_nil _
theorem usizeToStr_ne_nil (n : UInt64) : usizeToStr n ≠ [] := natToStr_ne_nil _

theorem i32ToStr_inj {a b : Int32} (h : i32ToStr a = i32ToStr b) : a = b := by
  have := parseI32_i32ToStr a
  rw [h, parseI32_i32ToStr] at this
  exact (Res.ok.inj this).symm

/-! Integer parsing never panics. -/

theorem parseDigits_no_panic (ov : IntErr) (max : Nat) (s : Str) : ∀ acc, parseDigits ov max acc s ≠ .panic := by
  induction s with
  | nil => intro acc; simp [parseDigits]
  | cons c s ih =>
    intro acc
    simp only [parseDigits]
    cases digitVal c with
    | none => simp
    | some d => simp only; split <;> simp [ih]

theorem Res.bind_no_panic {ε α β : Type} {r : Res ε α} {f : α → Res ε β} (h : r ≠ .panic)
    (hf : ∀ a, f a ≠ .panic) : r.bind f ≠ .panic := by
  cases r with
  | ok a => exact hf a
  | err e => simp [Res.bind]
  | panic => exact absurd rfl h

theorem parseUnsigned_no_panic (max : Nat) (s : Str) : parseUnsigned max s ≠ .panic := by
  unfold parseUnsigned
  cases s with
  | nil => simp
  | cons c r =>
    simp only
    split
    · simp
    · split <;> exact parseDigits_no_panic _ _ _ _

theorem parseSigned_no_panic (max : Nat) (s : Str) : parseSigned max s ≠ .panic := by
  unfold parseSigned
  cases s with
  | nil => simp
  | cons c r =>
    simp only
    split
    · simp
    · split
      · exact Res.bind_no_panic (parseDigits_no_panic _ _ _ _) (by simp)
      · split <;> exact Res.bind_no_panic (parseDigits_no_panic _ _ _ _) (by simp)

theorem parseI32_no_panic (s : Str) : parseI32 s ≠ .panic :=
  Res.bind_no_panic (parseSigned_no_panic _ _) (by simp)
theorem parseU8_no_panic (s : Str) : parseU8 s ≠ .panic :=
  Res.bind_no_panic (parseUnsigned_no_panic _ _) (by simp)
theorem parseU32_no_panic (s : Str) : parseU32 s ≠ .panic :=
  Res.bind_no_panic (parseUnsigned_no_panic _ _) (by simp)
theorem parseUsize_no_panic (s : Str) : parseUsize s ≠ .panic :=
  Res.bind_no_panic (parseUnsigned_no_panic _ _) (by simp)

theorem parseZeroOneBool_boolToStr (b : Bool) : parseZeroOneBool (boolToStr b) = .ok b := by
  cases b <;> decide

theorem parseZeroOneBool_no_panic (s : Str) : parseZeroOneBool s ≠ .panic := by
  unfold parseZeroOneBool
  have := parseI32_no_panic s
  cases h : parseI32 s with
  | ok n => simp only; split <;> (try split) <;> simp
  | err e => simp
  | panic => exact absurd h this

/-! Values accepted lie in the range, and have at least one character. -/

theorem parseDigits_le {ov : IntErr} {max : Nat} {s : Str} : ∀ {acc n : Nat}, acc ≤ max →
    parseDigits ov max acc s = .ok n → n ≤ max := by
  induction s with
  | nil => intro acc n h e; simp only [parseDigits, Res.ok.injEq] at e; omega
  | cons c s ih =>
    intro acc n h e
    simp only [parseDigits] at e
    cases hd : digitVal c with
    | none => simp [hd] at e
    | some d =>
      simp only [hd] at e
      split at e
      · cases e
      · exact ih (by omega) e

end Osu
