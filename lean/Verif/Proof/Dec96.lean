/-
A concrete decimal type meeting the laws of `DecLib`: sign, mantissa below 2^96, scale up to 28.
It shows that the laws assumed of rust_decimal are consistent and is used in the examples.
(rust_decimal accepts more texts, e.g. it rounds long fractions; the proofs do not depend on that.)
-/
import Verif.Basic.Dec
import Verif.Proof.Num

namespace Osu

structure Dec96 where
  neg : Bool
  mant : Nat
  scale : Nat
  deriving DecidableEq, Repr

namespace Dec96

def Canon (d : Dec96) : Prop := d.mant < 2 ^ 96 ∧ d.scale ≤ 28 ∧ (d.neg = true → d.mant ≠ 0)

instance (d : Dec96) : Decidable (Canon d) := by unfold Canon; infer_instance

/-- Digits of the mantissa, padded so that at least one digit precedes the point. -/
def digits (m sc : Nat) : Str :=
  let t := natToStr m
  List.replicate (sc + 1 - t.length) '0' ++ t

def shw (d : Dec96) : Str :=
  let t := digits d.mant d.scale
  let body := if d.scale = 0 then t else t.take (t.length - d.scale) ++ '.' :: t.drop (t.length - d.scale)
  if d.neg then '-' :: body else body

/-- Unsigned part: digits, optionally a point and more digits. -/
def parseBody (s : Str) : Option (Nat × Nat) :=
  let a := s.takeWhile (fun c => (digitVal c).isSome)
  let b := s.dropWhile (fun c => (digitVal c).isSome)
  if a = [] then none
  else match b with
    | [] =>
      match parseDigits .posOverflow (2 ^ 96 - 1) 0 a with
      | .ok m => some (m, 0)
      | _ => none
    | c :: f =>
      if c = '.' ∧ f ≠ [] ∧ f.length ≤ 28 then
        match parseDigits .posOverflow (2 ^ 96 - 1) 0 (a ++ f) with
        | .ok m => some (m, f.length)
        | _ => none
      else none

def parse (s : Str) : Option Dec96 :=
  match s with
  | '-' :: r =>
    match parseBody r with
    | some (m, sc) => some ⟨decide (m ≠ 0), m, sc⟩
    | none => none
  | _ =>
    match parseBody s with
    | some (m, sc) => some ⟨false, m, sc⟩
    | none => none

/-- Value times `10 ^ scale`, as an integer. -/
def toInt (d : Dec96) : Int := if d.neg then -(d.mant : Int) else d.mant

def ofInt (n : Int) (sc : Nat) : Dec96 := ⟨decide (n < 0), n.natAbs, sc⟩

/-- `+ 24`, `none` when the exact result does not fit 96 bits. -/
def add24 (d : Dec96) : Option Dec96 :=
  let r := ofInt (d.toInt + 24 * 10 ^ d.scale) d.scale
  if r.mant < 2 ^ 96 then some r else none

def sub24 (d : Dec96) : Option Dec96 :=
  let r := ofInt (d.toInt - 24 * 10 ^ d.scale) d.scale
  if r.mant < 2 ^ 96 then some r else none

theorem parseBody_bound {s : Str} {m sc : Nat} (h : parseBody s = some (m, sc)) : m < 2 ^ 96 ∧ sc ≤ 28 := by
  unfold parseBody at h
  simp only at h
  split at h
  · cases h
  · split at h
    · split at h
      · rename_i hm
        have := parseDigits_le (by omega) hm
        cases h; omega
      · cases h
    · split at h
      · rename_i hc
        split at h
        · rename_i hm
          have := parseDigits_le (by omega) hm
          cases h; omega
        · cases h
      · cases h

theorem parse_canon {s : Str} {d : Dec96} (h : parse s = some d) : Canon d := by
  unfold parse at h
  split at h
  · split at h
    · rename_i hb
      have := parseBody_bound hb
      cases h
      refine ⟨this.1, this.2, ?_⟩
      simp
    · cases h
  · split at h
    · rename_i hb
      have := parseBody_bound hb
      cases h
      exact ⟨this.1, this.2, by simp⟩
    · cases h

theorem digits_all (m sc : Nat) : ∀ c ∈ digits m sc, (digitVal c).isSome := by
  intro c hc
  unfold digits at hc
  rcases List.mem_append.1 hc with hc | hc
  · rw [(List.mem_replicate.1 hc).2]; decide
  · exact natToStr_digits _ c hc

theorem digits_length (m sc : Nat) : sc + 1 ≤ (digits m sc).length := by
  unfold digits
  have : (natToStr m).length ≠ 0 := fun h => natToStr_ne_nil m (List.length_eq_zero_iff.1 h)
  simp; omega

theorem parseDigits_zeros (ov : IntErr) (max k : Nat) (s : Str) :
    parseDigits ov max 0 (List.replicate k '0' ++ s) = parseDigits ov max 0 s := by
  induction k with
  | zero => simp
  | succ k ih =>
    rw [List.replicate_succ, List.cons_append, parseDigits]
    have : digitVal '0' = some 0 := by decide
    simp [this, ih]

theorem parseDigits_digits (m sc : Nat) (h : m < 2 ^ 96) :
    parseDigits .posOverflow (2 ^ 96 - 1) 0 (digits m sc) = .ok m := by
  unfold digits
  simp only
  rw [parseDigits_zeros, parseDigits_natToStr _ _ _ (by omega)]

theorem takeWhile_all {p : Char → Bool} {s : Str} (h : ∀ c ∈ s, p c = true) (t : Str)
    (ht : ∀ c r, t = c :: r → p c = false) :
    (s ++ t).takeWhile p = s ∧ (s ++ t).dropWhile p = t := by
  induction s with
  | nil =>
    cases t with
    | nil => simp
    | cons c r => simp [ht c r rfl]
  | cons a s ih =>
    have ha := h a List.mem_cons_self
    have := ih (fun c hc => h c (List.mem_cons_of_mem _ hc))
    simp [ha, this.1, this.2]

theorem parseBody_shw (m sc : Nat) (h : m < 2 ^ 96) (hs : sc ≤ 28) :
    parseBody (if sc = 0 then digits m sc else
      (digits m sc).take ((digits m sc).length - sc) ++ '.' :: (digits m sc).drop ((digits m sc).length - sc))
      = some (m, sc) := by
  have hl := digits_length m sc
  have hall := digits_all m sc
  split
  · rename_i h0
    subst h0
    have ht := takeWhile_all hall [] (by simp)
    simp only [List.append_nil] at ht
    unfold parseBody
    simp only [ht.1, ht.2, parseDigits_digits m 0 h]
    have : digits m 0 ≠ [] := by intro e; rw [e] at hl; simp at hl
    simp [this]
  · rename_i h0
    have ht := takeWhile_all (p := fun c => (digitVal c).isSome)
      (s := (digits m sc).take ((digits m sc).length - sc))
      (fun c hc => hall c (List.mem_of_mem_take hc))
      ('.' :: (digits m sc).drop ((digits m sc).length - sc))
      (by intro c r e; cases e; decide)
    unfold parseBody
    simp only [ht.1, ht.2, List.take_append_drop, parseDigits_digits m sc h]
    have h1 : (digits m sc).take ((digits m sc).length - sc) ≠ [] := by
      intro e
      have := congrArg List.length e
      simp at this; omega
    have h2 : ((digits m sc).drop ((digits m sc).length - sc)).length = sc := by
      simp; omega
    have h3 : (digits m sc).drop ((digits m sc).length - sc) ≠ [] := by
      intro e; rw [e] at h2; simp at h2; omega
    simp [h1, h2, h3, hs]

theorem parse_shw {d : Dec96} (h : Canon d) : parse (shw d) = some d := by
  obtain ⟨h1, h2, h3⟩ := h
  have hb := parseBody_shw d.mant d.scale h1 h2
  unfold shw
  simp only
  cases hn : d.neg with
  | true =>
    simp only [if_true, parse, hb]
    have := h3 hn
    rcases d with ⟨n, m, s⟩
    simp_all
  | false =>
    simp only [Bool.false_eq_true, if_false]
    have hne : ∀ r, (if d.scale = 0 then digits d.mant d.scale else
      (digits d.mant d.scale).take ((digits d.mant d.scale).length - d.scale) ++
        '.' :: (digits d.mant d.scale).drop ((digits d.mant d.scale).length - d.scale)) ≠ '-' :: r := by
      intro r
      have hall := digits_all d.mant d.scale
      have hl := digits_length d.mant d.scale
      have hd : digitVal '-' = none := by decide
      split
      · intro e
        have := hall '-' (by rw [e]; exact List.mem_cons_self)
        rw [hd] at this; cases this
      · intro e
        cases ht : (digits d.mant d.scale).take ((digits d.mant d.scale).length - d.scale) with
        | nil =>
          have := congrArg List.length ht
          simp at this; omega
        | cons c r' =>
          rw [ht] at e
          simp only [List.cons_append, List.cons.injEq] at e
          have := hall c (List.mem_of_mem_take (by rw [ht]; exact List.mem_cons_self))
          rw [e.1, hd] at this; cases this
    unfold parse
    split
    · rename_i r e
      exact absurd e (hne r)
    · rw [hb]
      rcases d with ⟨n, m, s⟩
      simp_all

theorem shw_chars {d : Dec96} : ∀ c ∈ shw d, isDecChar c = true := by
  have hall := digits_all d.mant d.scale
  have key : ∀ c ∈ (if d.scale = 0 then digits d.mant d.scale else
      (digits d.mant d.scale).take ((digits d.mant d.scale).length - d.scale) ++
        '.' :: (digits d.mant d.scale).drop ((digits d.mant d.scale).length - d.scale)), isDecChar c = true := by
    intro c hc
    split at hc
    · simp [isDecChar, hall c hc]
    · rcases List.mem_append.1 hc with hc | hc
      · simp [isDecChar, hall c (List.mem_of_mem_take hc)]
      · rcases List.mem_cons.1 hc with rfl | hc
        · decide
        · simp [isDecChar, hall c (List.mem_of_mem_drop hc)]
  intro c hc
  unfold shw at hc
  simp only at hc
  split at hc
  · rcases List.mem_cons.1 hc with rfl | hc
    · decide
    · exact key c hc
  · exact key c hc

instance : DecLib Dec96 where
  parse := parse
  shw := shw
  add24 := add24
  sub24 := sub24
  canon := Canon
  parse_canon := parse_canon
  parse_shw := parse_shw
  shw_chars := fun _ => shw_chars
  parse_nil := by decide

example : parse c!"-12.50" = some ⟨true, 1250, 2⟩ := by decide
example : shw ⟨false, 5, 3⟩ = c!"0.005" := by decide
example : parse c!"NaN" = none := by decide
example : add24 ⟨true, 1250, 2⟩ = some ⟨false, 1150, 2⟩ := by decide

end Dec96
end Osu
