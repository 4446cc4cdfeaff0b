/-
Lemmas on the nom combinators.
-/
import Verif.Proof.Str

namespace Osu
namespace Parser
variable {γ α β : Type}

@[simp] theorem bind_app (p : Parser γ α) (f : α → Parser γ β) (s : Str) :
    p.bind f s = match p s with
      | .ok r a => f a r
      | .error e => .error e
      | .failure e => .failure e
      | .panic => .panic := rfl

theorem bind_ok {p : Parser γ α} {f : α → Parser γ β} {s r : Str} {a : α} (h : p s = .ok r a) :
    p.bind f s = f a r := by simp [h]

@[simp] theorem ret_app (a : α) (s : Str) : (ret a : Parser γ α) s = .ok s a := rfl

theorem takeWhile_ok {f : Char → Bool} {s t : Str} (h : AllC f s) (ht : HeadNot f t) :
    (takeWhile f : Parser γ Str) (s ++ t) = .ok t s := by
  simp [takeWhile, takeWhile_app h ht, dropWhile_app h ht]

theorem takeWhile_all {f : Char → Bool} {s : Str} (h : AllC f s) :
    (takeWhile f : Parser γ Str) s = .ok [] s := by
  have := takeWhile_ok (γ := γ) (t := []) h .nil
  simpa using this

theorem isPrefixOf_append (t s : Str) : t.isPrefixOf (t ++ s) = true := by
  rw [List.isPrefixOf_iff_prefix]; exact List.prefix_append _ _

theorem tag_ok (t s : Str) : (tag t : Parser γ Str) (t ++ s) = .ok s t := by
  simp [tag, isPrefixOf_append]

theorem tag1_ok (c : Char) (s : Str) : (tag [c] : Parser γ Str) (c :: s) = .ok s [c] :=
  tag_ok [c] s

theorem char_ok (c : Char) (s : Str) : (char c : Parser γ Char) (c :: s) = .ok s c := by
  simp [char]

theorem many0F_fuel (p : Parser γ α) : ∀ (n m : Nat) (s : Str), s.length < n → s.length < m →
    many0F p n s = many0F p m s := by
  intro n
  induction n with
  | zero => intro m s h; omega
  | succ n ih =>
    intro m s hn hm
    cases m with
    | zero => omega
    | succ m =>
      unfold many0F
      cases hp : p s with
      | ok r a =>
        simp only
        split
        · rw [ih m r (by omega) (by omega)]
        · rfl
      | _ => rfl

theorem many0_cons {p : Parser γ α} {s r r' : Str} {a : α} {as : List α} (h : p s = .ok r a)
    (hl : r.length < s.length) (hr : many0 p r = .ok r' as) : many0 p s = .ok r' (a :: as) := by
  unfold many0 at hr ⊢
  rw [many0F]
  simp only [h, hl, if_true]
  rw [many0F_fuel p s.length (r.length + 1) r hl (by omega), hr]

theorem many0_nil {p : Parser γ α} {s : Str} {e : VErr γ} (h : p s = .error e) :
    many0 p s = .ok s [] := by
  unfold many0; rw [many0F]; simp only [h]

/-- The rest a parser returns is never longer than its input. -/
def Shrinks (p : Parser γ α) : Prop := ∀ s r a, p s = .ok r a → r.length ≤ s.length

theorem sepLoopF_fuel {sep : Parser γ β} {p : Parser γ α} (hp : Shrinks p) :
    ∀ (n m : Nat) (s : Str), s.length < n → s.length < m → sepLoopF sep p n s = sepLoopF sep p m s := by
  intro n
  induction n with
  | zero => intro m s h; omega
  | succ n ih =>
    intro m s hn hm
    cases m with
    | zero => omega
    | succ m =>
      unfold sepLoopF
      cases hs : sep s with
      | ok s1 b =>
        simp only
        split
        · cases hp1 : p s1 with
          | ok s2 a =>
            simp only
            have := hp _ _ _ hp1
            rw [ih m s2 (by omega) (by omega)]
          | _ => rfl
        · rfl
      | _ => rfl

/-- `sepLoopF` with enough fuel. -/
def sepLoop (sep : Parser γ β) (p : Parser γ α) : Parser γ (List α) := fun s =>
  sepLoopF sep p (s.length + 1) s

theorem sepLoop_eq {sep : Parser γ β} {p : Parser γ α} (hp : Shrinks p) (s : Str) :
    sepLoop sep p s = match sep s with
      | .error _ => .ok s []
      | .failure e => .failure e
      | .panic => .panic
      | .ok s1 _ =>
        if s1.length < s.length then
          match p s1 with
          | .error _ => .ok s []
          | .failure e => .failure e
          | .panic => .panic
          | .ok s2 a =>
            match sepLoop sep p s2 with
            | .ok r as => .ok r (a :: as)
            | x => x
        else .error [(s1, .nom .separatedList)] := by
  unfold sepLoop
  rw [sepLoopF]
  cases hs : sep s with
  | ok s1 b =>
    simp only [hs]
    split
    · cases hp1 : p s1 with
      | ok s2 a =>
        have := hp _ _ _ hp1
        simp only
        rw [sepLoopF_fuel hp s.length (s2.length + 1) s2 (by omega) (by omega)]
        cases sepLoopF sep p (s2.length + 1) s2 <;> rfl
      | _ => rfl
    · rfl
  | _ => simp only [hs]

theorem sepList0_eq {sep : Parser γ β} {p : Parser γ α} (hp : Shrinks p) (s : Str) :
    sepList0 sep p s = match p s with
      | .error _ => .ok s []
      | .failure e => .failure e
      | .panic => .panic
      | .ok r a =>
        match sepLoop sep p r with
        | .ok r' as => .ok r' (a :: as)
        | x => x := by
  unfold sepList0 sepLoop
  cases hp1 : p s with
  | ok s2 a =>
    have := hp _ _ _ hp1
    simp only
    rw [sepLoopF_fuel hp (s.length + 1) (s2.length + 1) s2 (by omega) (by omega)]
    cases sepLoopF sep p (s2.length + 1) s2 <;> rfl
  | _ => rfl

theorem takeWhile_shrinks (f : Char → Bool) : Shrinks (takeWhile f : Parser γ Str) := by
  intro s r a h
  cases h
  exact List.Sublist.length_le (List.dropWhile_sublist _)

theorem mapRes_shrinks {ε : Type} {p : Parser γ α} {f : α → Res ε β} (hp : Shrinks p) :
    Shrinks (mapRes p f) := by
  intro s r a h
  unfold mapRes at h
  cases hp1 : p s with
  | ok s2 a =>
    rw [hp1] at h
    simp only at h
    cases hf : f a with
    | ok b => rw [hf] at h; cases h; exact hp _ _ _ hp1
    | _ => rw [hf] at h; cases h
  | _ => rw [hp1] at h; cases h

theorem mapRes_ok {ε : Type} {p : Parser γ α} {f : α → Res ε β} {s r : Str} {a : α} {b : β}
    (h : p s = .ok r a) (hf : f a = .ok b) : mapRes p f s = .ok r b := by
  simp [mapRes, h, hf]

theorem mapRes_err {ε : Type} {p : Parser γ α} {f : α → Res ε β} {s r : Str} {a : α} {e : ε}
    (h : p s = .ok r a) (hf : f a = .err e) : mapRes p f s = .error [(s, .nom .mapRes)] := by
  simp [mapRes, h, hf]

end Parser
end Osu

namespace Osu
namespace Parser
variable {γ α β : Type}

theorem many0F_forall {p : Parser γ α} {P : α → Prop} (h : ∀ s r a, p s = .ok r a → P a) :
    ∀ (n : Nat) (s r : Str) (as : List α), many0F p n s = .ok r as → ∀ a ∈ as, P a := by
  intro n
  induction n with
  | zero => intro s r as h'; cases h'
  | succ n ih =>
    intro s r as h'
    rw [many0F] at h'
    cases hp : p s with
    | ok r1 a =>
      simp only [hp] at h'
      split at h'
      · cases hm : many0F p n r1 with
        | ok r2 as2 =>
          rw [hm] at h'
          cases h'
          intro x hx
          rcases List.mem_cons.1 hx with rfl | hx
          · exact h _ _ _ hp
          · exact ih _ _ _ hm x hx
        | _ => rw [hm] at h'; cases h'
      · cases h'
    | error e =>
      simp only [hp] at h'
      cases h'
      intro a ha; cases ha
    | failure e => simp only [hp] at h'; cases h'
    | panic => simp only [hp] at h'; cases h'

/-- Every value collected by `many0` came from the inner parser. -/
theorem many0_forall {p : Parser γ α} {P : α → Prop} (h : ∀ s r a, p s = .ok r a → P a) {s r : Str}
    {as : List α} (h' : many0 p s = .ok r as) : ∀ a ∈ as, P a :=
  many0F_forall h _ _ _ _ h'

/-- `many0` of a parser that consumes, never fails hard and never panics, always succeeds. -/
theorem many0_ok {p : Parser γ α} (h : ∀ s, (∃ e, p s = .error e) ∨ ∃ r a, p s = .ok r a ∧ r.length < s.length) :
    ∀ s, ∃ r as, many0 p s = .ok r as := by
  intro s
  induction hn : s.length using Nat.strongRecOn generalizing s with
  | _ n ih =>
    rcases h s with ⟨e, he⟩ | ⟨r, a, hr, hl⟩
    · exact ⟨_, _, many0_nil he⟩
    · obtain ⟨r', as, h'⟩ := ih r.length (by omega) r rfl
      exact ⟨_, _, many0_cons hr hl h'⟩

end Parser
end Osu
