/-
Replacing values by names and names by values.
-/
import Verif.Spec.Variables
import Verif.Proof.Str

namespace Osu
open SB Ev

theorem contains_iff {pat s : Str} : contains pat s = true ↔ pat <:+: s := by
  induction s with
  | nil => cases pat <;> simp [contains]
  | cons c s ih => rw [contains, Bool.or_eq_true, ih, List.isPrefixOf_iff_prefix, List.infix_cons_iff]

theorem replaceAux_skip (pat to p s : Str) : replaceAux pat to p.length (p ++ s) = replaceAux pat to 0 s := by
  induction p with
  | nil => rfl
  | cons c p ih => rw [List.length_cons, List.cons_append, replaceAux, ih]

theorem replaceAux_hit (a : Char) (pat to s : Str) :
    replaceAux (a :: pat) to 0 ((a :: pat) ++ s) = to ++ replaceAux (a :: pat) to 0 s := by
  rw [List.cons_append, replaceAux, if_pos]
  · rw [List.length_cons, Nat.add_sub_cancel, replaceAux_skip]
  · rw [List.isPrefixOf_iff_prefix, ← List.cons_append]; exact List.prefix_append _ _

theorem replaceAux_miss {pat to : Str} {c : Char} {s : Str} (h : ¬pat <+: c :: s) :
    replaceAux pat to 0 (c :: s) = c :: replaceAux pat to 0 s := by
  rw [replaceAux, if_neg]
  rwa [List.isPrefixOf_iff_prefix]

/-- Characters different from the first one of the pattern are kept. -/
theorem replaceAux_pass {a : Char} {pat to p s : Str} (h : a ∉ p) :
    replaceAux (a :: pat) to 0 (p ++ s) = p ++ replaceAux (a :: pat) to 0 s := by
  induction p with
  | nil => rfl
  | cons c p ih =>
    rw [List.cons_append, replaceAux_miss, ih (fun hm => h (List.mem_cons_of_mem _ hm)), List.cons_append]
    intro hp
    obtain ⟨t, ht⟩ := hp
    simp only [List.cons_append, List.cons.injEq] at ht
    exact h (by simp [ht.1])

theorem replace_cons (a : Char) (pat to s : Str) : replace (a :: pat) to s = replaceAux (a :: pat) to 0 s := by
  simp [replace]

theorem infix_consE {pat s : Str} {c : Char} : pat <:+: c :: s ↔ pat <+: c :: s ∨ pat <:+: s := List.infix_cons_iff

theorem replaced (a : Char) (pat to : Str) : ∀ (n : Nat) (s : Str), s.length ≤ n →
    Replaced (a :: pat) to s (replaceAux (a :: pat) to 0 s) := by
  have h0 : ∀ b : Str, b.length ≤ pat.length → ¬(a :: pat) <:+: b := by
    intro b hb hi
    have := hi.length_le
    simp at this
    omega
  have hnil : Replaced (a :: pat) to [] (replaceAux (a :: pat) to 0 []) :=
    ⟨[[]], by simp, rfl, rfl, by simp, by intro p hp; simp at hp; subst hp; exact h0 _ (by simp)⟩
  intro n
  induction n with
  | zero =>
    intro s hs
    have : s = [] := by cases s with
      | nil => rfl
      | cons => simp at hs
    subst this; exact hnil
  | succ n ih =>
    intro s hs
    cases s with
    | nil => exact hnil
    | cons c s =>
      simp only [List.length_cons, Nat.add_le_add_iff_right] at hs
      by_cases hp : (a :: pat) <+: c :: s
      · obtain ⟨s', hs'⟩ := hp
        have hlen : s'.length ≤ n := by
          have := congrArg List.length hs'
          simp at this; omega
        obtain ⟨parts, h1, h2, h3, h4, h5⟩ := ih s' hlen
        obtain ⟨p, ps, rfl⟩ := List.exists_cons_of_ne_nil h1
        rw [← hs', replaceAux_hit]
        refine ⟨[] :: p :: ps, by simp, ?_, ?_, ?_, ?_⟩
        · rw [join_cons_cons, ← h2]; rfl
        · rw [join_cons_cons, ← h3]; rfl
        · intro q hq
          rw [List.dropLast_cons_of_ne_nil (by simp)] at hq
          rcases List.mem_cons.1 hq with rfl | hq
          · exact h0 _ (by simp)
          · exact h4 q hq
        · intro q hq
          exact h5 q (by simpa [List.getLast?_cons_cons] using hq)
      · obtain ⟨parts, h1, h2, h3, h4, h5⟩ := ih s hs
        obtain ⟨p, ps, rfl⟩ := List.exists_cons_of_ne_nil h1
        rw [replaceAux_miss hp]
        have hj : ∀ sep : Str, join sep ((c :: p) :: ps) = c :: join sep (p :: ps) := by
          intro sep
          cases ps with
          | nil => rfl
          | cons q ps => rw [join_cons_cons, join_cons_cons]; rfl
        refine ⟨(c :: p) :: ps, by simp, by rw [hj, ← h2], by rw [hj, ← h3], ?_, ?_⟩
        · intro q hq
          cases ps with
          | nil => simp at hq
          | cons r ps =>
            rw [List.dropLast_cons_of_ne_nil (by simp)] at hq h4
            rcases List.mem_cons.1 hq with rfl | hq
            · rw [List.cons_append, infix_consE]
              rintro (h | h)
              · apply hp
                refine h.trans ?_
                rw [h2, join_cons_cons]
                have e := List.dropLast_concat_getLast (l := a :: pat) (by simp)
                refine ⟨[(a :: pat).getLast (by simp)] ++ join (a :: pat) (r :: ps), ?_⟩
                rw [← List.cons_append, ← List.append_assoc, List.append_assoc (c :: p), e]
                simp
              · exact h4 p (by simp) h
            · exact h4 q (by simp [hq])
        · intro q hq
          cases ps with
          | nil =>
            have : c :: p = q := by simpa using hq
            subst this
            rw [infix_consE]
            rintro (h | h)
            · apply hp; rw [h2]; exact h
            · exact h5 p (by simp) h
          | cons r ps =>
            exact h5 q (by simpa [List.getLast?_cons_cons] using hq)

/-! ### Texts with references to variables -/

/-- A character, or a reference to a variable. -/
inductive Tok where
  | ch (c : Char)
  | ref (v : Variable)
  deriving DecidableEq

/-- With names. -/
def Tok.shw : Tok → Str
  | .ch c => [c]
  | .ref v => '$' :: v.name

/-- With values. -/
def Tok.mean : Tok → Str
  | .ch c => [c]
  | .ref v => v.value

def shwT (T : List Tok) : Str := T.flatMap Tok.shw
def meanT (T : List Tok) : Str := T.flatMap Tok.mean

/-- References to `v` replaced by its value. -/
def Tok.subst (v : Variable) : Tok → List Tok
  | .ch c => [.ch c]
  | .ref w => if w = v then v.value.map .ch else [.ref w]

def substT (v : Variable) (T : List Tok) : List Tok := T.flatMap (Tok.subst v)

theorem shwT_ch (s : Str) : shwT (s.map .ch) = s := by
  induction s with
  | nil => rfl
  | cons c s ih => simp only [shwT, List.map_cons, List.flatMap_cons, Tok.shw] at ih ⊢; rw [ih]; rfl

theorem meanT_ch (s : Str) : meanT (s.map .ch) = s := by
  induction s with
  | nil => rfl
  | cons c s ih => simp only [meanT, List.map_cons, List.flatMap_cons, Tok.mean] at ih ⊢; rw [ih]; rfl

theorem shwT_append (T U : List Tok) : shwT (T ++ U) = shwT T ++ shwT U := List.flatMap_append
theorem meanT_append (T U : List Tok) : meanT (T ++ U) = meanT T ++ meanT U := List.flatMap_append
theorem shwT_cons (t : Tok) (T : List Tok) : shwT (t :: T) = t.shw ++ shwT T := rfl
theorem meanT_cons (t : Tok) (T : List Tok) : meanT (t :: T) = t.mean ++ meanT T := rfl

/-- Every `$` is the start of a reference. -/
def Plain (T : List Tok) : Prop := Tok.ch '$' ∉ T

/-- Reading one variable. -/
theorem replace_ref {v : Variable} {T : List Tok} (hp : Plain T) (hd : ∀ w, Tok.ref w ∈ T → '$' ∉ w.name)
    (hf : ∀ w, Tok.ref w ∈ T → w ≠ v → ¬v.name <+: w.name ∧ ¬w.name <+: v.name) :
    replaceAux ('$' :: v.name) v.value 0 (shwT T) = shwT (substT v T) := by
  induction T with
  | nil => rfl
  | cons t T ih =>
    have ih := ih (fun h => hp (List.mem_cons_of_mem _ h)) (fun w h => hd w (List.mem_cons_of_mem _ h))
      (fun w h => hf w (List.mem_cons_of_mem _ h))
    have e : substT v (t :: T) = Tok.subst v t ++ substT v T := rfl
    rw [shwT_cons, e, shwT_append, ← ih]
    cases t with
    | ch c =>
      refine replaceAux_pass ?_
      intro h
      have : '$' = c := by simpa [Tok.shw] using h
      subst this
      exact hp (by simp)
    | ref w =>
      simp only [Tok.shw, Tok.subst]
      by_cases hw : w = v
      · subst hw
        rw [if_pos rfl, shwT_ch, replaceAux_hit]
      · rw [if_neg hw, List.cons_append, replaceAux_miss]
        · rw [replaceAux_pass (hd w (by simp))]; simp [shwT, Tok.shw]
        · intro h
          rw [List.cons_prefix_cons] at h
          obtain ⟨h1, h2⟩ := hf w (by simp) hw
          rcases List.prefix_or_prefix_of_prefix h.2 (List.prefix_append w.name (shwT T)) with h3 | h3
          · exact h1 h3
          · exact h2 h3

theorem substT_mean (v : Variable) (T : List Tok) : meanT (substT v T) = meanT T := by
  induction T with
  | nil => rfl
  | cons t T ih =>
    have e : substT v (t :: T) = Tok.subst v t ++ substT v T := rfl
    rw [e, meanT_append, ih, meanT_cons]
    cases t with
    | ch c => rfl
    | ref w =>
      simp only [Tok.subst]
      split
      · subst_vars; rw [meanT_ch]; rfl
      · simp [meanT, Tok.mean]

theorem substT_ref {v w : Variable} {T : List Tok} (h : Tok.ref w ∈ substT v T) : Tok.ref w ∈ T ∧ w ≠ v := by
  obtain ⟨t, ht, h⟩ := List.mem_flatMap.1 h
  cases t with
  | ch c => simp [Tok.subst] at h
  | ref u =>
    simp only [Tok.subst] at h
    split at h
    · simp at h
    · rename_i hu
      have : w = u := by simpa using h
      subst this
      exact ⟨ht, hu⟩

theorem substT_plain {v : Variable} {T : List Tok} (h : Plain T) (hv : '$' ∉ v.value) : Plain (substT v T) := by
  intro hm
  obtain ⟨t, ht, hm⟩ := List.mem_flatMap.1 hm
  cases t with
  | ch c =>
    have : '$' = c := by simpa [Tok.subst] using hm
    subst this; exact h ht
  | ref u =>
    simp only [Tok.subst] at hm
    split at hm
    · exact hv (by simpa using hm)
    · simp at hm

theorem substT_self {v : Variable} {T : List Tok} (h : Tok.ref v ∉ T) : substT v T = T := by
  induction T with
  | nil => rfl
  | cons t T ih =>
    have e : substT v (t :: T) = Tok.subst v t ++ substT v T := rfl
    rw [e, ih fun hm => h (List.mem_cons_of_mem _ hm)]
    cases t with
    | ch c => rfl
    | ref w =>
      have : w ≠ v := by rintro rfl; exact h (by simp)
      simp [Tok.subst, this]

theorem shwT_noRef {T : List Tok} (h : ∀ w, Tok.ref w ∉ T) : shwT T = meanT T := by
  induction T with
  | nil => rfl
  | cons t T ih =>
    rw [shwT_cons, meanT_cons, ih fun w hm => h w (List.mem_cons_of_mem _ hm)]
    cases t with
    | ch c => rfl
    | ref w => exact absurd (by simp) (h w)

theorem shwT_infix {T : List Tok} {w : Variable} (h : Tok.ref w ∈ T) : ('$' :: w.name) <:+: shwT T := by
  obtain ⟨a, b, rfl⟩ := List.append_of_mem h
  rw [shwT_append, shwT_cons]
  exact ⟨shwT a, shwT b, by simp [Tok.shw]⟩

/-- Reading all variables. -/
theorem substVars_eq {nh pre : Str} {vars all : List Variable} (hpre : '$' ∉ pre) (hsub : ∀ v ∈ vars, v ∈ all)
    (hv : ∀ v ∈ all, '$' ∉ v.value) (hn : ∀ v ∈ all, '$' ∉ v.name)
    (hf : ∀ v ∈ all, ∀ w ∈ all, v ≠ w → ¬v.name <+: w.name) {T : List Tok} (hp : Plain T)
    (hr : ∀ w, Tok.ref w ∈ T → w ∈ vars ∧ ('$' :: w.name) <:+: nh) :
    substVars nh (pre ++ shwT T) vars = pre ++ meanT T := by
  induction vars generalizing T with
  | nil =>
    rw [substVars, shwT_noRef]
    intro w hw
    cases (hr w hw).1
  | cons v vs ih =>
    rw [substVars]
    have hv' := hsub v (by simp)
    have key : (if contains ('$' :: v.name) nh then replace ('$' :: v.name) v.value (pre ++ shwT T) else pre ++ shwT T) =
        pre ++ shwT (substT v T) := by
      split
      · rw [replace_cons, replaceAux_pass hpre, replace_ref hp]
        · exact fun w hw => hn w (hsub w (hr w hw).1)
        · exact fun w hw hne => ⟨hf v hv' w (hsub w (hr w hw).1) (Ne.symm hne), hf w (hsub w (hr w hw).1) v hv' hne⟩
      · rename_i hc
        rw [substT_self]
        exact fun hm => hc (contains_iff.2 (hr v hm).2)
    rw [key, ih (fun w hw => hsub w (by simp [hw])) (substT_plain hp (hv v hv')), substT_mean]
    intro w hw
    obtain ⟨h1, h2⟩ := substT_ref hw
    obtain ⟨h3, h4⟩ := hr w h1
    refine ⟨?_, h4⟩
    rcases List.mem_cons.1 h3 with rfl | h3
    · exact absurd rfl h2
    · exact h3

/-! ### Printing -/

theorem prefix_shwT {val : Str} (hd : '$' ∉ val) : ∀ {T : List Tok}, val <+: shwT T → ∃ U, T = val.map .ch ++ U := by
  induction val with
  | nil => exact fun {T} _ => ⟨T, rfl⟩
  | cons a val ih =>
    intro T h
    cases T with
    | nil => simp [shwT] at h
    | cons t T =>
      cases t with
      | ch c =>
        rw [shwT_cons] at h
        simp only [Tok.shw, List.singleton_append, List.cons_prefix_cons] at h
        obtain ⟨U, rfl⟩ := ih (fun hm => hd (by simp [hm])) h.2
        exact ⟨U, by simp [h.1]⟩
      | ref w =>
        rw [shwT_cons] at h
        simp only [Tok.shw, List.cons_append, List.cons_prefix_cons] at h
        exact absurd (by simp [h.1]) hd

/-- Printing one variable. -/
theorem replace_value {v : Variable} {a : Char} {val : Str} (ev : v.value = a :: val) (hd : '$' ∉ v.value) :
    ∀ (n : Nat) (T : List Tok), T.length ≤ n → (∀ w, Tok.ref w ∈ T → a ∉ w.name) →
      ∃ U, replaceAux v.value ('$' :: v.name) 0 (shwT T) = shwT U ∧ meanT U = meanT T ∧
        (∀ c, Tok.ch c ∈ U → Tok.ch c ∈ T) ∧ (∀ w, Tok.ref w ∈ U → w = v ∨ Tok.ref w ∈ T) := by
  have ha : a ≠ '$' := by rintro rfl; exact hd (by simp [ev])
  intro n
  induction n with
  | zero =>
    intro T hT _
    have : T = [] := by cases T with
      | nil => rfl
      | cons => simp at hT
    subst this
    exact ⟨[], rfl, rfl, by simp, by simp⟩
  | succ n ih =>
    intro T hT hr
    cases T with
    | nil => exact ⟨[], rfl, rfl, by simp, by simp⟩
    | cons t T =>
      simp only [List.length_cons, Nat.add_le_add_iff_right] at hT
      by_cases hpre : v.value <+: shwT (t :: T)
      · obtain ⟨U, hU⟩ := prefix_shwT hd hpre
        have hlen : U.length ≤ n := by
          have := congrArg List.length hU
          simp [ev] at this
          omega
        obtain ⟨U', h1, h2, h3, h4⟩ := ih U hlen fun w hw => hr w (by rw [hU]; simp [hw])
        refine ⟨.ref v :: U', ?_, ?_, ?_, ?_⟩
        · rw [hU, shwT_append, shwT_ch, ev, replaceAux_hit, ← ev, h1]; rfl
        · rw [hU, meanT_append, meanT_ch, meanT_cons, h2]; rfl
        · intro c hc
          rw [hU]
          simp only [List.mem_cons, reduceCtorEq, false_or] at hc
          exact List.mem_append_right _ (h3 c hc)
        · intro w hw
          rw [hU]
          rcases List.mem_cons.1 hw with hw | hw
          · cases hw; exact .inl rfl
          · rcases h4 w hw with h | h
            · exact .inl h
            · exact .inr (List.mem_append_right _ h)
      · obtain ⟨U', h1, h2, h3, h4⟩ := ih T hT fun w hw => hr w (List.mem_cons_of_mem _ hw)
        refine ⟨t :: U', ?_, ?_, ?_, ?_⟩
        · rw [shwT_cons, shwT_cons, ← h1]
          cases t with
          | ch c => exact replaceAux_miss hpre
          | ref w =>
            rw [ev]
            refine replaceAux_pass ?_
            have := hr w (by simp)
            simp [Tok.shw, ha, this]
        · rw [meanT_cons, meanT_cons, h2]
        · intro c hc
          rcases List.mem_cons.1 hc with hc | hc
          · exact hc ▸ List.mem_cons_self
          · exact List.mem_cons_of_mem _ (h3 c hc)
        · intro w hw
          rcases List.mem_cons.1 hw with hw | hw
          · exact .inr (hw ▸ List.mem_cons_self)
          · rcases h4 w hw with h | h
            · exact .inl h
            · exact .inr (List.mem_cons_of_mem _ h)

/-- Printing all variables. -/
theorem variableReplace_eq {vars : List Variable} (hv : ∀ v ∈ vars, v.value ≠ [] ∧ '$' ∉ v.value)
    (ha : vars.Pairwise fun v w => ∀ c, w.value.head? = some c → c ∉ v.name) {T : List Tok}
    (hT : ∀ w, Tok.ref w ∈ T → ∀ v ∈ vars, ∀ c, v.value.head? = some c → c ∉ w.name) :
    ∃ U, Command.variableReplace (shwT T) vars = shwT U ∧ meanT U = meanT T ∧
      (∀ c, Tok.ch c ∈ U → Tok.ch c ∈ T) ∧ (∀ w, Tok.ref w ∈ U → w ∈ vars ∨ Tok.ref w ∈ T) := by
  induction vars generalizing T with
  | nil => exact ⟨T, rfl, rfl, fun _ => id, fun _ => .inr⟩
  | cons v vs ih =>
    obtain ⟨h1, h2⟩ := hv v (by simp)
    obtain ⟨a, val, ev⟩ := List.exists_cons_of_ne_nil h1
    rw [List.pairwise_cons] at ha
    have step : ∃ U, (if contains v.value (shwT T) then replace v.value ('$' :: v.name) (shwT T) else shwT T) = shwT U ∧ meanT U = meanT T ∧
        (∀ c, Tok.ch c ∈ U → Tok.ch c ∈ T) ∧ (∀ w, Tok.ref w ∈ U → w = v ∨ Tok.ref w ∈ T) := by
      split
      · have : replace v.value ('$' :: v.name) (shwT T) = replaceAux v.value ('$' :: v.name) 0 (shwT T) := by rw [ev, replace_cons]
        rw [this]
        exact replace_value ev h2 _ T (Nat.le_refl _) fun w hw => hT w hw v (by simp) a (by simp [ev])
      · exact ⟨T, rfl, rfl, fun _ => id, fun _ => .inr⟩
    obtain ⟨U, e1, e2, e3, e4⟩ := step
    rw [Command.variableReplace, e1]
    obtain ⟨W, f1, f2, f3, f4⟩ := ih (T := U) (fun w hw => hv w (by simp [hw])) ha.2 (by
      intro w hw x hx c hc
      rcases e4 w hw with rfl | hw
      · exact ha.1 x hx c hc
      · exact hT w hw x (by simp [hx]) c hc)
    refine ⟨W, f1, f2.trans e2, fun c hc => e3 c (f3 c hc), ?_⟩
    intro w hw
    rcases f4 w hw with h | h
    · exact .inl (by simp [h])
    · rcases e4 w h with rfl | h
      · exact .inl (by simp)
      · exact .inr h

/-- Printing a text with variables gives a text that is read as the text. -/
theorem subst_replace {vars : List Variable} (h : VarsOK vars) {b pre : Str} (hb : '$' ∉ b) (hpre : '$' ∉ pre) :
    substVars (Command.variableReplace b vars) (pre ++ Command.variableReplace b vars) vars = pre ++ b := by
  obtain ⟨U, h1, h2, h3, h4⟩ := variableReplace_eq h.value h.apart (T := b.map .ch) (by
    intro w hw; simp at hw)
  rw [shwT_ch] at h1
  rw [meanT_ch] at h2
  rw [h1, substVars_eq hpre (fun _ => id) (fun v hv => (h.value v hv).2) h.name h.prefixFree, h2]
  · intro hm
    exact hb (by simpa using h3 '$' hm)
  · intro w hw
    refine ⟨?_, shwT_infix hw⟩
    rcases h4 w hw with h | h
    · exact h
    · simp at h

/-- The characters of a text printed with variables. -/
theorem variableReplace_chars {vars : List Variable} {f : Char → Bool} (hd : f '$' = true) (hn : ∀ v ∈ vars, AllC f v.name) {b : Str}
    (hb : AllC f b) : AllC f (Command.variableReplace b vars) := by
  have aux : ∀ (pat to s : Str), AllC f to → AllC f s → ∀ k, AllC f (replaceAux pat to k s) := by
    intro pat to s ht
    induction s with
    | nil => intro _ k; cases k <;> exact .nil
    | cons c s ih =>
      intro hs k
      have ih := ih fun x hx => hs x (by simp [hx])
      cases k with
      | succ k => exact ih k
      | zero =>
        rw [replaceAux]
        split
        · exact ht.append (ih _)
        · exact .cons (hs c (by simp)) (ih 0)
  induction vars generalizing b with
  | nil => exact hb
  | cons v vs ih =>
    rw [Command.variableReplace]
    have hv : AllC f ('$' :: v.name) := .cons hd (hn v (by simp))
    refine ih (fun w hw => hn w (by simp [hw])) ?_
    split
    · unfold replace
      split
      · refine hv.append ?_
        intro c hc
        obtain ⟨x, hx, hc⟩ := List.mem_flatMap.1 hc
        rcases List.mem_cons.1 hc with rfl | hc
        · exact hb _ hx
        · exact hv _ hc
      · exact aux _ _ _ hv hb 0
    · exact hb

/-- A text without `$` has no reference. -/
theorem substVars_none {vars : List Variable} {nh line : Str} (h : '$' ∉ nh) : substVars nh line vars = line := by
  induction vars with
  | nil => rfl
  | cons v vs ih =>
    rw [substVars, if_neg, ih]
    rw [contains_iff]
    intro hi
    exact h (hi.subset (by simp))

theorem replaceAux_part {a : Char} {pat to p r : Str} (h : ¬(a :: pat) <:+: p ++ (a :: pat).dropLast) :
    replaceAux (a :: pat) to 0 (p ++ ((a :: pat) ++ r)) = p ++ (to ++ replaceAux (a :: pat) to 0 r) := by
  induction p with
  | nil => exact replaceAux_hit _ _ _ _
  | cons c p ih =>
    rw [List.cons_append, infix_consE] at h
    rw [List.cons_append, replaceAux_miss, ih (fun hh => h (.inr hh)), List.cons_append]
    intro hp
    refine h (.inl (List.prefix_of_prefix_length_le hp (l₂ := c :: (p ++ (a :: pat).dropLast)) ?_ (by simp)))
    have : c :: (p ++ ((a :: pat) ++ r)) = c :: (p ++ (a :: pat).dropLast) ++ ([(a :: pat).getLast (by simp)] ++ r) := by
      conv => lhs; rw [← List.dropLast_concat_getLast (l := a :: pat) (by simp)]
      simp
    rw [this]; exact List.prefix_append _ _

theorem replaceAux_none {pat to s : Str} (h : ¬pat <:+: s) : replaceAux pat to 0 s = s := by
  induction s with
  | nil => rfl
  | cons c s ih =>
    rw [infix_consE] at h
    rw [replaceAux_miss (fun hp => h (.inl hp)), ih fun hp => h (.inr hp)]

/-- The specification determines the text. -/
theorem replaced_iff {a : Char} {pat to s t : Str} : Replaced (a :: pat) to s t ↔ t = replace (a :: pat) to s := by
  constructor
  · rintro ⟨parts, h1, rfl, rfl, h4, h5⟩
    rw [replace_cons]
    clear h1
    induction parts with
    | nil => rfl
    | cons p ps ih =>
      cases ps with
      | nil => exact (replaceAux_none (h5 p rfl)).symm
      | cons q qs =>
        rw [List.dropLast_cons_of_ne_nil (by simp)] at h4
        rw [join_cons_cons, join_cons_cons, List.append_assoc, List.append_assoc, replaceAux_part (h4 p (by simp)),
          ← ih (fun x hx => h4 x (by simp [hx])) fun x hx => h5 x (by simpa [List.getLast?_cons_cons] using hx)]
  · rintro rfl
    rw [replace_cons]; exact replaced _ _ _ _ _ (Nat.le_refl _)

end Osu
