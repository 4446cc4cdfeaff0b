/-
Panic freedom of parsers: errors carry a context label, so the conversion
`verbose_error_to_error!` never reaches `unreachable!`.

`P` is the condition under which a panic is allowed (`fun _ => False` for none); it concerns the text and
must be inherited from a suffix by the whole text.
-/
import Verif.Proof.Comb

namespace Osu
namespace Parser
variable {γ α β ε : Type} {P : Str → Prop}

/-- What holds of a suffix holds of the text. -/
def Upward (P : Str → Prop) : Prop := ∀ {s t : Str}, s <:+ t → P s → P t

/-- Returns a suffix of the input and panics only under `P`. -/
structure Safe (P : Str → Prop) (p : Parser γ α) : Prop where
  suffix : ∀ {s r a}, p s = .ok r a → r <:+ s
  panic : ∀ {s}, p s = .panic → P s

/-- Also every failure carries a context. -/
structure SafeF (P : Str → Prop) (p : Parser γ α) : Prop extends Safe P p where
  failure : ∀ {s e}, p s = .failure e → (firstCtx e).isSome

/-- Also every error carries a context. -/
structure Good (P : Str → Prop) (p : Parser γ α) : Prop extends SafeF P p where
  error : ∀ {s e}, p s = .error e → (firstCtx e).isSome

theorem firstCtx_append_ctx (e : VErr γ) (s : Str) (c : γ) : (firstCtx (e ++ [(s, .ctx c)])).isSome := by
  induction e with
  | nil => rfl
  | cons x e ih =>
    obtain ⟨i, k⟩ := x
    cases k <;> simp [firstCtx] <;> simpa using ih

theorem firstCtx_append {e : VErr γ} (x : VErr γ) (h : (firstCtx e).isSome) : (firstCtx (e ++ x)).isSome := by
  induction e with
  | nil => simp [firstCtx] at h
  | cons y e ih =>
    obtain ⟨i, k⟩ := y
    cases k with
    | ctx c => rfl
    | char c => simpa [firstCtx] using ih (by simpa [firstCtx] using h)
    | nom c => simpa [firstCtx] using ih (by simpa [firstCtx] using h)

/-- The conversion of the result of a good parser does not panic. -/
theorem Good.toRes {p : Parser γ α} (h : Good P p) {s : Str} (hp : (p s).toRes = .panic) : P s := by
  cases hs : p s with
  | ok r a => rw [hs] at hp; cases hp
  | panic => exact h.panic hs
  | error e =>
    have := h.error hs
    rw [hs] at hp
    simp only [PRes.toRes] at hp
    cases hf : firstCtx e with
    | none => rw [hf] at this; cases this
    | some c => rw [hf] at hp; cases hp
  | failure e =>
    have := h.failure hs
    rw [hs] at hp
    simp only [PRes.toRes] at hp
    cases hf : firstCtx e with
    | none => rw [hf] at this; cases this
    | some c => rw [hf] at hp; cases hp

theorem Safe.bind (hP : Upward P) {p : Parser γ α} {f : α → Parser γ β} (hp : Safe P p) (hf : ∀ a, Safe P (f a)) :
    Safe P (p.bind f) where
  suffix := by
    intro s r b h
    obtain ⟨r1, a, h1, h2⟩ := bind_eq_ok.1 h
    exact ((hf a).suffix h2).trans (hp.suffix h1)
  panic := by
    intro s h
    rw [bind_app] at h
    cases hs : p s with
    | ok r a => rw [hs] at h; exact hP (hp.suffix hs) ((hf a).panic h)
    | panic => exact hp.panic hs
    | error e => rw [hs] at h; cases h
    | failure e => rw [hs] at h; cases h

theorem SafeF.bind (hP : Upward P) {p : Parser γ α} {f : α → Parser γ β} (hp : SafeF P p)
    (hf : ∀ a, SafeF P (f a)) : SafeF P (p.bind f) where
  toSafe := Safe.bind hP hp.toSafe fun a => (hf a).toSafe
  failure := by
    intro s e h
    rw [bind_app] at h
    cases hs : p s with
    | ok r a => rw [hs] at h; exact (hf a).failure h
    | panic => rw [hs] at h; cases h
    | error e => rw [hs] at h; cases h
    | failure e => rw [hs] at h; cases h; exact hp.failure hs

theorem Good.bind (hP : Upward P) {p : Parser γ α} {f : α → Parser γ β} (hp : Good P p)
    (hf : ∀ a, Good P (f a)) : Good P (p.bind f) where
  toSafeF := SafeF.bind hP hp.toSafeF fun a => (hf a).toSafeF
  error := by
    intro s e h
    rw [bind_app] at h
    cases hs : p s with
    | ok r a => rw [hs] at h; exact (hf a).error h
    | panic => rw [hs] at h; cases h
    | error e => rw [hs] at h; cases h; exact hp.error hs
    | failure e => rw [hs] at h; cases h

theorem Safe.preceded (hP : Upward P) {p : Parser γ α} {q : Parser γ β} (hp : Safe P p) (hq : Safe P q) :
    Safe P (preceded p q) := hp.bind hP fun _ => hq
theorem SafeF.preceded (hP : Upward P) {p : Parser γ α} {q : Parser γ β} (hp : SafeF P p) (hq : SafeF P q) :
    SafeF P (preceded p q) := hp.bind hP fun _ => hq
theorem Good.preceded (hP : Upward P) {p : Parser γ α} {q : Parser γ β} (hp : Good P p) (hq : Good P q) :
    Good P (preceded p q) := hp.bind hP fun _ => hq

theorem Good.ret (a : α) : Good P (ret a : Parser γ α) where
  suffix := by intro s r b h; obtain ⟨rfl, _⟩ := ret_eq_ok.1 h; exact List.suffix_refl _
  panic := by intro s h; cases h
  failure := by intro s e h; cases h
  error := by intro s e h; cases h

theorem Good.terminated (hP : Upward P) {p : Parser γ α} {q : Parser γ β} (hp : Good P p) (hq : Good P q) :
    Good P (terminated p q) := hp.bind hP fun _ => hq.bind hP fun _ => .ret _

theorem Safe.terminated (hP : Upward P) {p : Parser γ α} {q : Parser γ β} (hp : Safe P p) (hq : Safe P q) :
    Safe P (terminated p q) := hp.bind hP fun _ => hq.bind hP fun _ => (Good.ret _).toSafe

theorem SafeF.terminated (hP : Upward P) {p : Parser γ α} {q : Parser γ β} (hp : SafeF P p) (hq : SafeF P q) :
    SafeF P (terminated p q) := hp.bind hP fun _ => hq.bind hP fun _ => (Good.ret _).toSafeF

/-- A context turns any safe parser into a good one. -/
theorem Safe.context (c : γ) {p : Parser γ α} (hp : Safe P p) : Good P (context c p) where
  suffix := by intro s r a h; exact hp.suffix (context_eq_ok.1 h)
  panic := by
    intro s h
    unfold Parser.context at h
    cases hs : p s with
    | panic => exact hp.panic hs
    | _ => rw [hs] at h; cases h
  failure := by
    intro s e h
    unfold Parser.context at h
    cases hs : p s with
    | failure e => rw [hs] at h; cases h; exact firstCtx_append_ctx _ _ _
    | _ => rw [hs] at h; cases h
  error := by
    intro s e h
    unfold Parser.context at h
    cases hs : p s with
    | error e => rw [hs] at h; cases h; exact firstCtx_append_ctx _ _ _
    | _ => rw [hs] at h; cases h

theorem Good.cut {p : Parser γ α} (hp : Good P p) : Good P (cut p) where
  suffix := by intro s r a h; exact hp.suffix (cut_eq_ok.1 h)
  panic := by
    intro s h
    unfold Parser.cut at h
    cases hs : p s with
    | panic => exact hp.panic hs
    | _ => rw [hs] at h; cases h
  failure := by
    intro s e h
    unfold Parser.cut at h
    cases hs : p s with
    | failure e => rw [hs] at h; cases h; exact hp.failure hs
    | error e => rw [hs] at h; cases h; exact hp.error hs
    | _ => rw [hs] at h; cases h
  error := by
    intro s e h
    unfold Parser.cut at h
    cases hs : p s <;> (rw [hs] at h; cases h)

theorem Safe.cut {p : Parser γ α} (hp : Safe P p) : Safe P (cut p) where
  suffix := by intro s r a h; exact hp.suffix (cut_eq_ok.1 h)
  panic := by
    intro s h
    unfold Parser.cut at h
    cases hs : p s with
    | panic => exact hp.panic hs
    | _ => rw [hs] at h; cases h

theorem Safe.map {p : Parser γ α} (hp : Safe P p) (f : α → β) : Safe P (p.map f) where
  suffix := by intro s r a h; obtain ⟨_, h, _⟩ := map_eq_ok.1 h; exact hp.suffix h
  panic := by
    intro s h
    unfold Parser.map at h
    cases hs : p s with
    | panic => exact hp.panic hs
    | _ => rw [hs] at h; cases h

theorem SafeF.map {p : Parser γ α} (hp : SafeF P p) (f : α → β) : SafeF P (p.map f) where
  toSafe := hp.toSafe.map f
  failure := by
    intro s e h
    unfold Parser.map at h
    cases hs : p s with
    | failure e => rw [hs] at h; cases h; exact hp.failure hs
    | _ => rw [hs] at h; cases h

theorem Good.map {p : Parser γ α} (hp : Good P p) (f : α → β) : Good P (p.map f) where
  toSafeF := hp.toSafeF.map f
  error := by
    intro s e h
    unfold Parser.map at h
    cases hs : p s with
    | error e => rw [hs] at h; cases h; exact hp.error hs
    | _ => rw [hs] at h; cases h

theorem Safe.mapP {p : Parser γ α} (hp : Safe P p) {f : α → Option β}
    (hf : ∀ s r a, p s = .ok r a → f a = none → P s) : Safe P (p.mapP f) where
  suffix := by intro s r a h; obtain ⟨_, h, _⟩ := mapP_eq_ok.1 h; exact hp.suffix h
  panic := by
    intro s h
    unfold Parser.mapP at h
    split at h
    · rename_i r a hr
      split at h
      · cases h
      · rename_i hn; exact hf s r a hr hn
    · cases h
    · cases h
    · rename_i hr; exact hp.panic hr

theorem Good.mapP {p : Parser γ α} (hp : Good P p) {f : α → Option β}
    (hf : ∀ s r a, p s = .ok r a → f a = none → P s) : Good P (p.mapP f) where
  toSafe := hp.toSafe.mapP hf
  failure := by
    intro s e h
    unfold Parser.mapP at h
    split at h
    · split at h <;> cases h
    · cases h
    · rename_i hr; cases h; exact hp.failure hr
    · cases h
  error := by
    intro s e h
    unfold Parser.mapP at h
    split at h
    · split at h <;> cases h
    · rename_i hr; cases h; exact hp.error hr
    · cases h
    · cases h

theorem Safe.mapRes {p : Parser γ α} (hp : Safe P p) {f : α → Res ε β} (hf : ∀ a, f a ≠ .panic) :
    Safe P (mapRes p f) where
  suffix := by intro s r a h; obtain ⟨_, h, _⟩ := mapRes_eq_ok.1 h; exact hp.suffix h
  panic := by
    intro s h
    unfold Parser.mapRes at h
    cases hs : p s with
    | panic => exact hp.panic hs
    | ok r a =>
      simp only [hs] at h
      cases ha : f a with
      | panic => exact absurd ha (hf a)
      | _ => simp only [ha] at h; cases h
    | _ => rw [hs] at h; cases h

/-- As `Safe.mapRes` when failures cannot occur inside. -/
theorem SafeF.mapRes {p : Parser γ α} (hp : SafeF P p) {f : α → Res ε β} (hf : ∀ a, f a ≠ .panic) :
    SafeF P (mapRes p f) where
  toSafe := hp.toSafe.mapRes hf
  failure := by
    intro s e h
    unfold Parser.mapRes at h
    cases hs : p s with
    | failure e => rw [hs] at h; cases h; exact hp.failure hs
    | ok r a =>
      simp only [hs] at h
      cases ha : f a <;> (simp only [ha] at h; cases h)
    | _ => rw [hs] at h; cases h

/-- Mapping with a function that never fails. -/
theorem Good.mapRes_total {p : Parser γ α} (hp : Good P p) {f : α → Res ε β} (hf : ∀ a, ∃ b, f a = .ok b) :
    Good P (Parser.mapRes p f) where
  toSafeF := hp.toSafeF.mapRes fun a => by obtain ⟨b, h⟩ := hf a; rw [h]; simp
  error := by
    intro s e h
    unfold Parser.mapRes at h
    cases hs : p s with
    | error e => rw [hs] at h; cases h; exact hp.error hs
    | ok r a =>
      obtain ⟨b, hb⟩ := hf a
      simp only [hs, hb] at h; cases h
    | _ => rw [hs] at h; cases h

theorem Good.takeWhile (f : Char → Bool) : Good P (takeWhile f : Parser γ Str) where
  suffix := by intro s r a h; obtain ⟨rfl, _⟩ := takeWhile_eq_ok.1 h; exact List.suffix_append _ _
  panic := by intro s h; cases h
  failure := by intro s e h; cases h
  error := by intro s e h; cases h

theorem Good.rest : Good P (rest : Parser γ Str) where
  suffix := by intro s r a h; obtain ⟨rfl, _⟩ := rest_eq_ok.1 h; exact List.nil_suffix
  panic := by intro s h; cases h
  failure := by intro s e h; cases h
  error := by intro s e h; cases h

theorem SafeF.tag (t : Str) : SafeF P (tag t : Parser γ Str) where
  suffix := by intro s r a h; obtain ⟨rfl, _⟩ := tag_eq_ok.1 h; exact List.suffix_append _ _
  panic := by intro s h; unfold Parser.tag at h; split at h <;> cases h
  failure := by intro s e h; unfold Parser.tag at h; split at h <;> cases h

theorem SafeF.char (c : Char) : SafeF P (char c : Parser γ Char) where
  suffix := by intro s r a h; obtain ⟨rfl, _⟩ := char_eq_ok.1 h; exact List.suffix_cons _ _
  panic := by intro s h; unfold Parser.char at h; split at h <;> (try split at h) <;> cases h
  failure := by intro s e h; unfold Parser.char at h; split at h <;> (try split at h) <;> cases h

theorem SafeF.eof : SafeF P (eof : Parser γ Str) where
  suffix := by intro s r a h; obtain ⟨_, rfl, _⟩ := eof_eq_ok.1 h; exact List.nil_suffix
  panic := by intro s h; cases s <;> cases h
  failure := by intro s e h; cases s <;> cases h

theorem SafeF.fail : SafeF P (fail : Parser γ α) where
  suffix := by intro s r a h; cases h
  panic := by intro s h; cases h
  failure := by intro s e h; cases h

theorem SafeF.digit1 : SafeF P (digit1 : Parser γ Str) where
  suffix := by
    intro s r a h
    unfold Parser.digit1 at h
    split at h
    · cases h
    · cases h; exact List.dropWhile_suffix _
  panic := by intro s h; unfold Parser.digit1 at h; split at h <;> cases h
  failure := by intro s e h; unfold Parser.digit1 at h; split at h <;> cases h

theorem SafeF.guardP (b : Bool) : SafeF P (guardP b : Parser γ Unit) where
  suffix := by intro s r a h; obtain ⟨_, rfl⟩ := guardP_eq_ok.1 h; exact List.suffix_refl _
  panic := by intro s h; unfold Parser.guardP at h; split at h <;> cases h
  failure := by intro s e h; unfold Parser.guardP at h; split at h <;> cases h

theorem SafeF.nothing : SafeF P (nothing : Parser γ Str) where
  suffix := by intro s r a h; obtain ⟨_, rfl, _⟩ := nothing_eq_ok.1 h; exact List.nil_suffix
  panic := by intro s h; rw [nothing_eq] at h; split at h <;> cases h
  failure := by intro s e h; rw [nothing_eq] at h; split at h <;> cases h

theorem splitAt_suffix {t s a b : Str} (h : splitAt t s = some (a, b)) : s = a ++ b := by
  induction s generalizing a b with
  | nil =>
    unfold splitAt at h
    split at h
    · cases h; rfl
    · cases h
  | cons c s ih =>
    unfold splitAt at h
    split at h
    · cases h; rfl
    · split at h
      · rename_i a' b' h'
        cases h
        simp [ih h']
      · cases h

theorem SafeF.takeUntil (t : Str) : SafeF P (takeUntil t : Parser γ Str) where
  suffix := by
    intro s r a h
    unfold Parser.takeUntil at h
    split at h
    · rename_i h'; cases h; rw [splitAt_suffix h']; exact List.suffix_append _ _
    · cases h
  panic := by intro s h; unfold Parser.takeUntil at h; split at h <;> cases h
  failure := by intro s e h; unfold Parser.takeUntil at h; split at h <;> cases h

theorem Safe.verify {p : Parser γ α} (hp : Safe P p) (f : α → Bool) : Safe P (verify p f) where
  suffix := by
    intro s r a h
    unfold Parser.verify at h
    split at h
    · rename_i h'
      split at h
      · cases h; exact hp.suffix h'
      · cases h
    · exact hp.suffix h
  panic := by
    intro s h
    unfold Parser.verify at h
    split at h
    · split at h <;> cases h
    · exact hp.panic h

theorem SafeF.verify {p : Parser γ α} (hp : SafeF P p) (f : α → Bool) : SafeF P (verify p f) where
  toSafe := hp.toSafe.verify f
  failure := by
    intro s e h
    unfold Parser.verify at h
    split at h
    · split at h <;> cases h
    · exact hp.failure h

theorem SafeF.peek {p : Parser γ α} (hp : SafeF P p) : SafeF P (peek p) where
  suffix := by
    intro s r a h
    unfold Parser.peek at h
    split at h
    · cases h; exact List.suffix_refl _
    · exact hp.suffix h
  panic := by
    intro s h
    unfold Parser.peek at h
    split at h
    · cases h
    · exact hp.panic h
  failure := by
    intro s e h
    unfold Parser.peek at h
    split at h
    · cases h
    · exact hp.failure h

/-- `alt`: all alternatives safe; the last one decides the error. -/
theorem Good.alt {ps : List (Parser γ α)} {q : Parser γ α} (hps : ∀ p ∈ ps, SafeF P p) (hq : Good P q) :
    Good P (alt (ps ++ [q])) := by
  have key : ∀ prev s, (∀ r a, altAux prev s (ps ++ [q]) = .ok r a → r <:+ s) ∧
      (altAux prev s (ps ++ [q]) = .panic → P s) ∧
      (∀ e, altAux prev s (ps ++ [q]) = .failure e → (firstCtx e).isSome) ∧
      (∀ e, altAux prev s (ps ++ [q]) = .error e → (firstCtx e).isSome) := by
    intro prev s
    induction ps generalizing prev with
    | nil =>
      simp only [List.nil_append, altAux]
      cases hs : q s with
      | ok r a => exact ⟨fun r a h => by cases h; exact hq.suffix hs, nofun, nofun, nofun⟩
      | panic => exact ⟨nofun, fun _ => hq.panic hs, nofun, nofun⟩
      | failure e => exact ⟨nofun, nofun, fun e h => by cases h; exact hq.failure hs, nofun⟩
      | error e =>
        exact ⟨nofun, nofun, nofun, fun e h => by cases h; exact firstCtx_append _ (hq.error hs)⟩
    | cons p ps ih =>
      have hp := hps p (by simp)
      simp only [List.cons_append, altAux]
      cases hs : p s with
      | ok r a => exact ⟨fun r a h => by cases h; exact hp.suffix hs, nofun, nofun, nofun⟩
      | panic => exact ⟨nofun, fun _ => hp.panic hs, nofun, nofun⟩
      | failure e => exact ⟨nofun, nofun, fun e h => by cases h; exact hp.failure hs, nofun⟩
      | error e => exact ih (fun x hx => hps x (by simp [hx])) e
  exact {
    suffix := fun {s r a} h => (key [] s).1 r a h
    panic := fun {s} h => (key [] s).2.1 h
    failure := fun {s e} h => (key [] s).2.2.1 e h
    error := fun {s e} h => (key [] s).2.2.2 e h }

theorem SafeF.alt {ps : List (Parser γ α)} (hps : ∀ p ∈ ps, SafeF P p) : SafeF P (alt ps) := by
  have key : ∀ prev s, (∀ r a, altAux prev s ps = .ok r a → r <:+ s) ∧
      (altAux prev s ps = .panic → P s) ∧
      (∀ e, altAux prev s ps = .failure e → (firstCtx e).isSome) := by
    intro prev s
    induction ps generalizing prev with
    | nil => exact ⟨nofun, nofun, nofun⟩
    | cons p ps ih =>
      have hp := hps p (by simp)
      simp only [altAux]
      cases hs : p s with
      | ok r a => exact ⟨fun r a h => by cases h; exact hp.suffix hs, nofun, nofun⟩
      | panic => exact ⟨nofun, fun _ => hp.panic hs, nofun⟩
      | failure e => exact ⟨nofun, nofun, fun e h => by cases h; exact hp.failure hs⟩
      | error e => exact ih (fun x hx => hps x (by simp [hx])) e
  exact {
    suffix := fun {s r a} h => (key [] s).1 r a h
    panic := fun {s} h => (key [] s).2.1 h
    failure := fun {s e} h => (key [] s).2.2 e h }

theorem SafeF.sepLoopF (hP : Upward P) {sep : Parser γ β} {p : Parser γ α} (hs : SafeF P sep) (hp : SafeF P p) (n : Nat) :
    SafeF P (sepLoopF sep p n) := by
  have key : ∀ s, (∀ r a, Parser.sepLoopF sep p n s = .ok r a → r <:+ s) ∧
      (Parser.sepLoopF sep p n s = .panic → P s) ∧
      (∀ e, Parser.sepLoopF sep p n s = .failure e → (firstCtx e).isSome) := by
    induction n with
    | zero => intro s; exact ⟨nofun, nofun, nofun⟩
    | succ n ih =>
      intro s
      unfold Parser.sepLoopF
      cases h1 : sep s with
      | error e => exact ⟨fun r a h => by cases h; exact List.suffix_refl _, nofun, nofun⟩
      | failure e => exact ⟨nofun, nofun, fun e h => by cases h; exact hs.failure h1⟩
      | panic => exact ⟨nofun, fun _ => hs.panic h1, nofun⟩
      | ok s1 b =>
        have hs1 := hs.suffix h1
        simp only
        split
        · cases h2 : p s1 with
          | error e => exact ⟨fun r a h => by cases h; exact List.suffix_refl _, nofun, nofun⟩
          | failure e => exact ⟨nofun, nofun, fun e h => by cases h; exact hp.failure h2⟩
          | panic => exact ⟨nofun, fun _ => hP hs1 (hp.panic h2), nofun⟩
          | ok s2 a =>
            have hs2 := (hp.suffix h2).trans hs1
            simp only
            cases h3 : Parser.sepLoopF sep p n s2 with
            | ok r as => exact ⟨fun r a h => by cases h; exact ((ih s2).1 _ _ h3).trans hs2, nofun, nofun⟩
            | panic => exact ⟨nofun, fun _ => hP hs2 ((ih s2).2.1 h3), nofun⟩
            | failure e => exact ⟨nofun, nofun, fun e h => by cases h; exact (ih s2).2.2 _ h3⟩
            | error e => exact ⟨nofun, nofun, nofun⟩
        · exact ⟨nofun, nofun, nofun⟩
  exact {
    suffix := fun {s r a} h => (key s).1 r a h
    panic := fun {s} h => (key s).2.1 h
    failure := fun {s e} h => (key s).2.2 e h }

theorem SafeF.sepList0 (hP : Upward P) {sep : Parser γ β} {p : Parser γ α} (hs : SafeF P sep) (hp : SafeF P p) :
    SafeF P (sepList0 sep p) := by
  have key : ∀ s, (∀ r a, Parser.sepList0 sep p s = .ok r a → r <:+ s) ∧
      (Parser.sepList0 sep p s = .panic → P s) ∧
      (∀ e, Parser.sepList0 sep p s = .failure e → (firstCtx e).isSome) := by
    intro s
    unfold Parser.sepList0
    cases h2 : p s with
    | error e => exact ⟨fun r a h => by cases h; exact List.suffix_refl _, nofun, nofun⟩
    | failure e => exact ⟨nofun, nofun, fun e h => by cases h; exact hp.failure h2⟩
    | panic => exact ⟨nofun, fun _ => hp.panic h2, nofun⟩
    | ok s2 a =>
      have hs2 := hp.suffix h2
      have hl := SafeF.sepLoopF hP hs hp (s.length + 1)
      simp only
      cases h3 : Parser.sepLoopF sep p (s.length + 1) s2 with
      | ok r as => exact ⟨fun r a h => by cases h; exact (hl.suffix h3).trans hs2, nofun, nofun⟩
      | panic => exact ⟨nofun, fun _ => hP hs2 (hl.panic h3), nofun⟩
      | failure e => exact ⟨nofun, nofun, fun e h => by cases h; exact hl.failure h3⟩
      | error e => exact ⟨nofun, nofun, nofun⟩
  exact {
    suffix := fun {s r a} h => (key s).1 r a h
    panic := fun {s} h => (key s).2.1 h
    failure := fun {s e} h => (key s).2.2 e h }

theorem SafeF.comma : SafeF P (comma : Parser γ Str) := .tag _
theorem Good.commaField : Good P (commaField : Parser γ Str) := .takeWhile _
theorem Good.takeTill (f : Char → Bool) : Good P (takeTill f : Parser γ Str) := .takeWhile _
theorem Good.space0 : Good P (space0 : Parser γ Str) := .takeWhile _
theorem Good.multispace0 : Good P (multispace0 : Parser γ Str) := .takeWhile _

theorem SafeF.commaFieldType {f : Str → Res ε α} (hf : ∀ a, f a ≠ .panic) :
    SafeF P (commaFieldType f : Parser γ α) := Good.commaField.toSafeF.mapRes hf

theorem SafeF.restType {f : Str → Res ε α} (hf : ∀ a, f a ≠ .panic) :
    SafeF P (restType f : Parser γ α) := Good.rest.toSafeF.mapRes hf

theorem SafeF.pipeVec (hP : Upward P) {f : Str → Res ε α} (hf : ∀ a, f a ≠ .panic) :
    SafeF P (pipeVec f : Parser γ (List α)) :=
  .sepList0 hP (.tag _) ((Good.takeWhile _).toSafeF.mapRes hf)

/-- A comma, then a field, both with a context. -/
theorem Good.commaThen (hP : Upward P) {c1 c2 : γ} {f : Str → Res ε α} (hf : ∀ a, f a ≠ .panic) :
    Good P (Parser.preceded (Parser.context c1 Parser.comma) (Parser.context c2 (Parser.commaFieldType f))) :=
  .preceded hP (SafeF.comma.toSafe.context _) ((SafeF.commaFieldType hf).toSafe.context _)

theorem Upward.false : Upward (fun _ => False) := fun _ h => h

end Parser
end Osu
