/-
Exact conditions for the combinators to succeed, used both to run a parser and to invert a success.
-/
import Verif.Proof.Nom
import Verif.Proof.Num

namespace Osu
namespace Parser
variable {γ α β ε : Type}

theorem bind_eq_ok {p : Parser γ α} {f : α → Parser γ β} {s r : Str} {b : β} :
    p.bind f s = .ok r b ↔ ∃ r1 a, p s = .ok r1 a ∧ f a r1 = .ok r b := by
  rw [bind_app]
  cases h : p s with
  | ok r1 a =>
    simp only [PRes.ok.injEq]
    constructor
    · intro h'; exact ⟨r1, a, ⟨rfl, rfl⟩, h'⟩
    · rintro ⟨_, _, ⟨rfl, rfl⟩, h'⟩; exact h'
  | _ => simp

theorem ret_eq_ok {a b : α} {s r : Str} : (ret a : Parser γ α) s = .ok r b ↔ r = s ∧ b = a := by
  simp [ret, eq_comm]

theorem preceded_eq_ok {p : Parser γ α} {q : Parser γ β} {s r : Str} {b : β} :
    preceded p q s = .ok r b ↔ ∃ r1 a, p s = .ok r1 a ∧ q r1 = .ok r b := bind_eq_ok

theorem terminated_eq_ok {p : Parser γ α} {q : Parser γ β} {s r : Str} {a : α} :
    terminated p q s = .ok r a ↔ ∃ r1 b, p s = .ok r1 a ∧ q r1 = .ok r b := by
  unfold terminated
  simp only [bind_eq_ok, ret_eq_ok]
  constructor
  · rintro ⟨r1, a', h1, r2, b, h2, rfl, rfl⟩; exact ⟨r1, b, h1, h2⟩
  · rintro ⟨r1, b, h1, h2⟩; exact ⟨r1, a, h1, r, b, h2, rfl, rfl⟩

theorem context_eq_ok {c : γ} {p : Parser γ α} {s r : Str} {a : α} :
    context c p s = .ok r a ↔ p s = .ok r a := by
  unfold context
  cases h : p s <;> simp

theorem cut_eq_ok {p : Parser γ α} {s r : Str} {a : α} : cut p s = .ok r a ↔ p s = .ok r a := by
  unfold cut
  cases h : p s <;> simp

theorem map_eq_ok {p : Parser γ α} {f : α → β} {s r : Str} {b : β} :
    map p f s = .ok r b ↔ ∃ a, p s = .ok r a ∧ f a = b := by
  unfold map
  cases h : p s <;> simp
  constructor
  · rintro ⟨rfl, rfl⟩; exact ⟨_, ⟨rfl, rfl⟩, rfl⟩
  · rintro ⟨_, ⟨rfl, rfl⟩, rfl⟩; exact ⟨rfl, rfl⟩

theorem mapP_eq_ok {p : Parser γ α} {f : α → Option β} {s r : Str} {b : β} :
    mapP p f s = .ok r b ↔ ∃ a, p s = .ok r a ∧ f a = some b := by
  constructor
  · intro h
    unfold mapP at h
    split at h
    · rename_i r' a hp
      split at h
      · rename_i b' hf; cases h; exact ⟨a, hp, hf⟩
      · cases h
    all_goals cases h
  · rintro ⟨a, h1, h2⟩; simp only [mapP, h1, h2]

theorem mapRes_eq_ok {p : Parser γ α} {f : α → Res ε β} {s r : Str} {b : β} :
    mapRes p f s = .ok r b ↔ ∃ a, p s = .ok r a ∧ f a = .ok b := by
  constructor
  · intro h
    unfold mapRes at h
    split at h
    · rename_i r' a hp
      split at h
      · rename_i b' hf; cases h; exact ⟨a, hp, hf⟩
      · cases h
      · cases h
    all_goals cases h
  · rintro ⟨a, h1, h2⟩; simp only [mapRes, h1, h2]

theorem takeWhile_eq_ok {f : Char → Bool} {s r a : Str} :
    (takeWhile f : Parser γ Str) s = .ok r a ↔ s = a ++ r ∧ AllC f a ∧ HeadNot f r := by
  constructor
  · intro h
    simp only [takeWhile, PRes.ok.injEq] at h
    obtain ⟨rfl, rfl⟩ := h
    exact ⟨(List.takeWhile_append_dropWhile).symm, takeWhile_allC _ _, dropWhile_headNot _ _⟩
  · rintro ⟨rfl, h1, h2⟩; exact takeWhile_ok h1 h2

theorem tag_eq_ok {t s r a : Str} : (tag t : Parser γ Str) s = .ok r a ↔ s = t ++ r ∧ a = t := by
  constructor
  · intro h
    unfold tag at h
    split at h
    · rename_i hp
      simp only [PRes.ok.injEq] at h
      obtain ⟨rfl, rfl⟩ := h
      rw [List.isPrefixOf_iff_prefix] at hp
      obtain ⟨u, rfl⟩ := hp
      simp
    · cases h
  · rintro ⟨rfl, rfl⟩; exact tag_ok _ _

theorem comma_eq_ok {s r a : Str} : (comma : Parser γ Str) s = .ok r a ↔ s = ',' :: r ∧ a = [','] := tag_eq_ok

theorem char_eq_ok {c d : Char} {s r : Str} : (char c : Parser γ Char) s = .ok r d ↔ s = c :: r ∧ d = c := by
  unfold char
  cases s with
  | nil => simp
  | cons e s =>
    simp only
    split
    · rename_i h; subst h; simp [eq_comm]
    · rename_i h
      simp only [List.cons.injEq]
      constructor
      · intro h'; cases h'
      · rintro ⟨⟨rfl, _⟩, _⟩; exact absurd rfl h

theorem rest_eq_ok {s r a : Str} : (rest : Parser γ Str) s = .ok r a ↔ r = [] ∧ a = s := by
  simp [rest, eq_comm]

theorem eof_eq_ok {s r a : Str} : (eof : Parser γ Str) s = .ok r a ↔ s = [] ∧ r = [] ∧ a = [] := by
  cases s with
  | nil => simp [eof, eq_comm]
  | cons c s => simp [eof]

theorem nothing_eq_ok {s r a : Str} : (nothing : Parser γ Str) s = .ok r a ↔ AllC isSpace s ∧ r = [] ∧ a = [] := by
  unfold nothing space0
  simp only [preceded_eq_ok, takeWhile_eq_ok, eof_eq_ok]
  constructor
  · rintro ⟨r1, a', ⟨rfl, h1, _⟩, rfl, rfl, rfl⟩; simpa using h1
  · rintro ⟨h, rfl, rfl⟩; exact ⟨[], s, ⟨by simp, h, .nil⟩, rfl, rfl, rfl⟩

theorem nothing_eq {s : Str} : (nothing : Parser γ Str) s =
    if AllC isSpace s then .ok [] [] else .error [(s.dropWhile isSpace, .nom .eof)] := by
  split
  · rename_i h; exact nothing_eq_ok.2 ⟨h, rfl, rfl⟩
  · rename_i h
    rw [← dropWhile_eq_nil] at h
    unfold nothing space0 preceded takeWhile
    rw [bind_app]
    cases hd : s.dropWhile isSpace with
    | nil => exact absurd hd h
    | cons c r => rfl

theorem guardP_eq_ok {b : Bool} {s r : Str} {u : Unit} : (guardP b : Parser γ Unit) s = .ok r u ↔ b = true ∧ r = s := by
  unfold guardP
  cases b <;> simp [eq_comm]

theorem altAux_eq_ok {ps : List (Parser γ α)} {prev prev' : VErr γ} {s r : Str} {a : α} :
    altAux prev s ps = .ok r a ↔ altAux prev' s ps = .ok r a := by
  cases ps with
  | nil => simp [altAux]
  | cons p ps => rw [altAux, altAux]

theorem alt_nil_eq_ok {s r : Str} {a : α} : alt ([] : List (Parser γ α)) s = .ok r a ↔ False := by
  simp [alt, altAux]

theorem alt_cons_eq_ok {p : Parser γ α} {ps : List (Parser γ α)} {s r : Str} {a : α} :
    alt (p :: ps) s = .ok r a ↔ p s = .ok r a ∨ (∃ e, p s = .error e) ∧ alt ps s = .ok r a := by
  unfold alt
  rw [altAux]
  cases h : p s with
  | error e =>
    simp only [reduceCtorEq, false_or, PRes.error.injEq, exists_eq', true_and]
    exact altAux_eq_ok
  | _ => simp

theorem alt_cons_ok {p : Parser γ α} {ps : List (Parser γ α)} {s r : Str} {a : α} (h : p s = .ok r a) :
    alt (p :: ps) s = .ok r a := alt_cons_eq_ok.2 (.inl h)

theorem alt_cons_err {p : Parser γ α} {ps : List (Parser γ α)} {s r : Str} {a : α} (h : ∃ e, p s = .error e)
    (h' : alt ps s = .ok r a) : alt (p :: ps) s = .ok r a := alt_cons_eq_ok.2 (.inr ⟨h, h'⟩)

/-! ### Errors -/

theorem map_err {p : Parser γ α} {f : α → β} {s : Str} (h : ∃ e, p s = .error e) : ∃ e, map p f s = .error e := by
  obtain ⟨e, h⟩ := h; exact ⟨e, by simp [map, h]⟩

theorem context_err {c : γ} {p : Parser γ α} {s : Str} (h : ∃ e, p s = .error e) :
    ∃ e, context c p s = .error e := by
  obtain ⟨e, h⟩ := h; exact ⟨_, by simp only [context, h]; rfl⟩

theorem bind_err {p : Parser γ α} {f : α → Parser γ β} {s : Str} (h : ∃ e, p s = .error e) :
    ∃ e, p.bind f s = .error e := by
  obtain ⟨e, h⟩ := h; exact ⟨e, by simp [h]⟩

theorem bind_err' {p : Parser γ α} {f : α → Parser γ β} {s r : Str} {a : α} (h0 : p s = .ok r a)
    (h : ∃ e, f a r = .error e) : ∃ e, p.bind f s = .error e := by
  obtain ⟨e, h⟩ := h; exact ⟨e, by simp [h0, h]⟩

theorem preceded_err {p : Parser γ α} {q : Parser γ β} {s : Str} (h : ∃ e, p s = .error e) :
    ∃ e, preceded p q s = .error e := bind_err h

theorem preceded_err' {p : Parser γ α} {q : Parser γ β} {s r : Str} {a : α} (h0 : p s = .ok r a)
    (h : ∃ e, q r = .error e) : ∃ e, preceded p q s = .error e := bind_err' h0 h

theorem mapRes_err' {p : Parser γ α} {f : α → Res ε β} {s r : Str} {a : α} {e : ε} (h : p s = .ok r a)
    (hf : f a = .err e) : ∃ e, mapRes p f s = .error e := ⟨_, by simp only [mapRes, h, hf]; rfl⟩

theorem nothing_err {s : Str} (h : ¬ AllC isSpace s) : ∃ e, (nothing : Parser γ Str) s = .error e := by
  rw [nothing_eq, if_neg h]; exact ⟨_, rfl⟩

theorem nothing_err_cons {c : Char} {s : Str} (h : isSpace c = false) :
    ∃ e, (nothing : Parser γ Str) (c :: s) = .error e :=
  nothing_err fun h' => by have := h'.of_cons.1; rw [h] at this; cases this

theorem guardP_err {s : Str} {b : Bool} (h : b = false) : ∃ e, (guardP b : Parser γ Unit) s = .error e := by
  subst h; exact ⟨_, rfl⟩

/-! ### Comma separated fields -/

/-- No comma. -/
abbrev NoComma (s : Str) : Prop := AllC (fun c => !(c == ',')) s

/-- The next thing is the end or a comma. -/
def AtComma (s : Str) : Prop := s = [] ∨ ∃ r, s = ',' :: r

theorem AtComma.nil : AtComma [] := .inl rfl
theorem AtComma.cons {r : Str} : AtComma (',' :: r) := .inr ⟨r, rfl⟩

theorem commaField_eq_ok {s r a : Str} :
    (commaField : Parser γ Str) s = .ok r a ↔ s = a ++ r ∧ NoComma a ∧ AtComma r := by
  have e : (fun c : Char => decide (c ≠ ',')) = (fun c => !(c == ',')) := by
    funext c; by_cases h : c = ',' <;> simp [h]
  unfold commaField
  rw [e, takeWhile_eq_ok]
  constructor
  · rintro ⟨h1, h2, h3⟩
    refine ⟨h1, h2, ?_⟩
    cases r with
    | nil => exact .nil
    | cons c r =>
      have := h3.of_cons
      simp at this
      subst this; exact .cons
  · rintro ⟨h1, h2, h3⟩
    refine ⟨h1, h2, ?_⟩
    rcases h3 with rfl | ⟨r, rfl⟩
    · exact .nil
    · exact .cons (by simp)

theorem commaFieldType_eq_ok {f : Str → Res ε α} {s r : Str} {a : α} :
    (commaFieldType f : Parser γ α) s = .ok r a ↔
      ∃ t, s = t ++ r ∧ NoComma t ∧ AtComma r ∧ f t = .ok a := by
  unfold commaFieldType
  simp only [mapRes_eq_ok, commaField_eq_ok]
  constructor
  · rintro ⟨t, ⟨h1, h2, h3⟩, h4⟩; exact ⟨t, h1, h2, h3, h4⟩
  · rintro ⟨t, h1, h2, h3, h4⟩; exact ⟨t, ⟨h1, h2, h3⟩, h4⟩

theorem restType_eq_ok {f : Str → Res ε α} {s r : Str} {a : α} :
    (restType f : Parser γ α) s = .ok r a ↔ r = [] ∧ f s = .ok a := by
  unfold restType
  simp only [mapRes_eq_ok, rest_eq_ok]
  constructor
  · rintro ⟨_, ⟨rfl, rfl⟩, h⟩; exact ⟨rfl, h⟩
  · rintro ⟨rfl, h⟩; exact ⟨s, ⟨rfl, rfl⟩, h⟩

theorem restType_err {f : Str → Res ε α} {s : Str} {e : ε} (h : f s = .err e) :
    ∃ e, (restType f : Parser γ α) s = .error e := mapRes_err' (rest_eq_ok.2 ⟨rfl, rfl⟩) h

/-- A comma, then a field. -/
theorem commaThen_eq_ok {c1 c2 : γ} {f : Str → Res ε α} {s r : Str} {a : α} :
    preceded (context c1 comma) (context c2 (commaFieldType f)) s = .ok r a ↔
      ∃ t, s = ',' :: (t ++ r) ∧ NoComma t ∧ AtComma r ∧ f t = .ok a := by
  simp only [preceded_eq_ok, context_eq_ok, comma_eq_ok, commaFieldType_eq_ok]
  constructor
  · rintro ⟨r1, _, ⟨rfl, _⟩, t, rfl, h⟩; exact ⟨t, rfl, h⟩
  · rintro ⟨t, rfl, h⟩; exact ⟨_, _, ⟨rfl, rfl⟩, t, rfl, h⟩

theorem toRes_eq_ok {x : PRes γ α} {a : α} : x.toRes = .ok a ↔ ∃ r, x = .ok r a := by
  cases x with
  | ok r b => simp [PRes.toRes]
  | error e => simp only [PRes.toRes]; cases firstCtx e <;> simp
  | failure e => simp only [PRes.toRes]; cases firstCtx e <;> simp
  | panic => simp [PRes.toRes]

end Parser

theorem Res.bind_eq_ok {ε α β : Type} {r : Res ε α} {f : α → Res ε β} {b : β} :
    r.bind f = .ok b ↔ ∃ a, r = .ok a ∧ f a = .ok b := by
  cases r <;> simp [Res.bind]

theorem Res.bind_eq_ok' {ε α β : Type} {r : Res ε α} {f : α → Res ε β} {b : β} :
    (r >>= f) = .ok b ↔ ∃ a, r = .ok a ∧ f a = .ok b := Res.bind_eq_ok

/-! ### Accepted integers -/

/-- Characters that can occur in an accepted integer. -/
def isNumChar (c : Char) : Bool := (digitVal c).isSome || c == '-' || c == '+'

theorem parseDigits_chars {ov : IntErr} {max : Nat} {s : Str} : ∀ {acc n : Nat},
    parseDigits ov max acc s = .ok n → AllC (fun c => (digitVal c).isSome) s := by
  induction s with
  | nil => intro acc n _; exact .nil
  | cons c s ih =>
    intro acc n h
    rw [parseDigits] at h
    split at h
    · cases h
    · rename_i d hd
      split at h
      · cases h
      · exact .cons (by simp [hd]) (ih h)

theorem parseUnsigned_chars {max : Nat} {s : Str} {n : Nat} (h : parseUnsigned max s = .ok n) :
    s ≠ [] ∧ AllC isNumChar s := by
  cases s with
  | nil => simp [parseUnsigned] at h
  | cons c r =>
    refine ⟨by simp, ?_⟩
    simp only [parseUnsigned] at h
    split at h
    · cases h
    · split at h
      · rename_i hc
        subst hc
        exact .cons (by decide) ((parseDigits_chars h).mono fun c hc => by simp [isNumChar, hc])
      · exact (parseDigits_chars h).mono fun c hc => by simp [isNumChar, hc]

theorem parseSigned_chars {max : Nat} {s : Str} {n : Int} (h : parseSigned max s = .ok n) :
    s ≠ [] ∧ AllC isNumChar s := by
  cases s with
  | nil => simp [parseSigned] at h
  | cons c r =>
    refine ⟨by simp, ?_⟩
    simp only [parseSigned] at h
    split at h
    · cases h
    · split at h
      · rename_i hc
        subst hc
        obtain ⟨n, h, _⟩ := Res.bind_eq_ok.1 h
        exact .cons (by decide) ((parseDigits_chars h).mono fun c hc => by simp [isNumChar, hc])
      · split at h
        · rename_i hc
          subst hc
          obtain ⟨n, h, _⟩ := Res.bind_eq_ok.1 h
          exact .cons (by decide) ((parseDigits_chars h).mono fun c hc => by simp [isNumChar, hc])
        · obtain ⟨n, h, _⟩ := Res.bind_eq_ok.1 h
          exact (parseDigits_chars h).mono fun c hc => by simp [isNumChar, hc]

theorem parseI32_chars {s : Str} {n : Int32} (h : parseI32 s = .ok n) : s ≠ [] ∧ AllC isNumChar s := by
  obtain ⟨n, h, _⟩ := Res.bind_eq_ok.1 h
  exact parseSigned_chars h

theorem parseU8_chars {s : Str} {n : UInt8} (h : parseU8 s = .ok n) : s ≠ [] ∧ AllC isNumChar s := by
  obtain ⟨n, h, _⟩ := Res.bind_eq_ok.1 h
  exact parseUnsigned_chars h

theorem parseU32_chars {s : Str} {n : UInt32} (h : parseU32 s = .ok n) : s ≠ [] ∧ AllC isNumChar s := by
  obtain ⟨n, h, _⟩ := Res.bind_eq_ok.1 h
  exact parseUnsigned_chars h

theorem parseUsize_chars {s : Str} {n : UInt64} (h : parseUsize s = .ok n) : s ≠ [] ∧ AllC isNumChar s := by
  obtain ⟨n, h, _⟩ := Res.bind_eq_ok.1 h
  exact parseUnsigned_chars h

/-- A parser that accepts only number characters and does not panic rejects anything else. -/
theorem err_of_char {ε α : Type} {f : Str → Res ε α} (hn : ∀ s, f s ≠ .panic)
    (hc : ∀ s a, f s = .ok a → AllC isNumChar s) {s : Str} {c : Char} (h : c ∈ s) (h' : isNumChar c = false) :
    ∃ e, f s = .err e := by
  cases hf : f s with
  | ok a => have := hc s a hf c h; rw [h'] at this; cases this
  | err e => exact ⟨e, rfl⟩
  | panic => exact absurd hf (hn s)

theorem parseZeroOneBool_chars {s : Str} {b : Bool} (h : parseZeroOneBool s = .ok b) : AllC isNumChar s := by
  unfold parseZeroOneBool at h
  split at h
  · rename_i n hn; exact (parseI32_chars hn).2
  · cases h
  · cases h

end Osu
