/-
Lemmas about nested commands.
-/
import Verif.Spec.Tree

namespace Osu
open SB (Command CmdProps)
open Ev

namespace SB
variable {D : Type}

/-- Induction over commands with the hypothesis for all nested commands. -/
theorem Command.rec' {P : Command D → Prop}
    (h : ∀ t p, (∀ cs, p.children = some cs → ∀ c ∈ cs, P c) → P (.mk t p)) : ∀ c, P c := by
  have key : ∀ n, ∀ c : Command D, sizeOf c ≤ n → P c := by
    intro n
    induction n with
    | zero => intro c hc; cases c; simp at hc
    | succ n ih =>
      intro c hc
      cases c with
      | mk t p =>
        apply h
        intro cs hcs c hmem
        apply ih
        have := List.sizeOf_lt_of_mem hmem
        cases p <;> simp only [CmdProps.children, reduceCtorEq, Option.some.injEq] at hcs <;> subst hcs <;>
          simp only [Command.mk.sizeOf_spec, CmdProps.loop.sizeOf_spec, CmdProps.trigger.sizeOf_spec] at hc <;> omega
  exact fun c => key _ c (Nat.le_refl _)

theorem CmdProps.listing_children (k : Nat) (p : CmdProps D (Command D)) :
    CmdProps.listing k p = match p.children with
      | some cs => SB.listing k cs
      | none => [] := by
  cases p <;> simp only [CmdProps.listing, CmdProps.children]

theorem listing_nil (k : Nat) : (listing k [] : List (Nat × Command D)) = [] := by simp only [listing]

theorem listing_cons (k : Nat) (c : Command D) (cs : List (Command D)) :
    listing k (c :: cs) = c.listing k ++ listing k cs := by simp only [listing]

theorem Command.listing_mk (k : Nat) (t : Option Int32) (p : CmdProps D (Command D)) :
    Command.listing k (.mk t p) = (k, Command.bare (.mk t p)) :: CmdProps.listing (k + 1) p := by
  simp only [Command.listing]

theorem listing_append (k : Nat) (cs ds : List (Command D)) :
    listing k (cs ++ ds) = listing k cs ++ listing k ds := by
  induction cs with
  | nil => simp only [listing, List.nil_append]
  | cons c cs ih => simp only [List.cons_append, listing_cons, ih, List.append_assoc]

theorem listing_single (k : Nat) (c : Command D) : listing k [c] = c.listing k := by
  simp only [listing, List.append_nil]

/-- Listing one level deeper. -/
def deeper (l : List (Nat × Command D)) : List (Nat × Command D) := l.map fun x => (x.1 + 1, x.2)

theorem listing_deeper_of (k : Nat) (cs : List (Command D))
    (h : ∀ c ∈ cs, ∀ k, c.listing (k + 1) = deeper (c.listing k)) :
    listing (k + 1) cs = deeper (listing k cs) := by
  induction cs with
  | nil => simp only [listing, deeper, List.map_nil]
  | cons c cs ih =>
    rw [listing_cons, listing_cons, h c (List.mem_cons_self ..), ih fun d hd => h d (List.mem_cons_of_mem _ hd)]
    simp only [deeper, List.map_append]

theorem Command.listing_deeper (c : Command D) : ∀ k, c.listing (k + 1) = deeper (c.listing k) := by
  induction c using Command.rec' with
  | h t p ih =>
    intro k
    rw [listing_mk, listing_mk, CmdProps.listing_children, CmdProps.listing_children]
    cases hp : p.children with
    | none => rfl
    | some cs =>
      simp only [deeper, List.map_cons]
      rw [listing_deeper_of (k + 1) cs (ih cs hp)]; rfl

theorem listing_deeper (k : Nat) (cs : List (Command D)) : listing (k + 1) cs = deeper (listing k cs) :=
  listing_deeper_of k cs fun c _ => c.listing_deeper

theorem bare_children (t : Option Int32) {p : CmdProps D (Command D)} {cs : List (Command D)}
    (h : p.children = some cs) : Command.bare (.mk t p) = .mk t (p.setChildren []) := by
  cases p <;> simp only [CmdProps.children, reduceCtorEq] at h <;> rfl

theorem bare_none (t : Option Int32) {p : CmdProps D (Command D)}
    (h : p.children = none) : Command.bare (.mk t p) = .mk t p := by
  cases p <;> simp only [CmdProps.children, reduceCtorEq] at h <;> rfl

theorem children_set {p : CmdProps D (Command D)} {cs : List (Command D)} (ds : List (Command D))
    (h : p.children = some cs) : (p.setChildren ds).children = some ds := by
  cases p <;> simp only [CmdProps.children, reduceCtorEq] at h <;> rfl

theorem set_set (p : CmdProps D (Command D)) (cs ds : List (Command D)) :
    (p.setChildren cs).setChildren ds = p.setChildren ds := by
  cases p <;> rfl

theorem set_children {p : CmdProps D (Command D)} {cs : List (Command D)} (h : p.children = some cs) :
    p.setChildren cs = p := by
  cases p <;> simp only [CmdProps.children, reduceCtorEq, Option.some.injEq] at h <;> subst h <;> rfl

theorem bare_set (t : Option Int32) (p : CmdProps D (Command D)) (ds : List (Command D)) :
    Command.bare (.mk t (p.setChildren ds)) = Command.bare (.mk t p) := by
  cases p <;> rfl

theorem holds_iff (c : Command D) : c.Holds ↔ ∃ cs, c.props.children = some cs := by
  cases c with | mk t p => cases p <;> simp [Command.Holds, Command.props, CmdProps.children]

theorem bare_holds (c : Command D) : c.bare.Holds ↔ c.Holds := by
  cases c with | mk t p => cases p <;> simp [Command.Holds, Command.bare]

/-- Nesting does not change the printed command. -/
theorem toStrVars_bare [DecLib D] (vars : List Variable) (c : Command D) : c.bare.toStrVars vars = c.toStrVars vars := by
  cases c with | mk t p => cases p <;> rfl

end SB

namespace Ev
open SB
variable {D : Type}

/-! ### Pushing -/

theorem pushLoop_shift (cmd : Command D) (n : Nat) : ∀ (ind i : Nat) (x : Command D),
    (pushLoop (ind + 1) cmd n (i + 1) x).1 = (pushLoop ind cmd n i x).1 ∧
    (pushLoop (ind + 1) cmd n (i + 1) x).2.isOk = (pushLoop ind cmd n i x).2.isOk := by
  induction n with
  | zero => intro ind i x; simp only [pushLoop, and_self]
  | succ n ih =>
    intro ind i x
    cases x with
    | mk t p =>
      simp only [pushLoop]
      cases p.children with
      | none => exact ⟨rfl, rfl⟩
      | some cs =>
        by_cases hi : i + 1 = ind
        · subst hi; simp only [if_true]; exact ⟨trivial, trivial⟩
        · have hi' : ¬ i + 1 + 1 = ind + 1 := by omega
          simp only [if_neg hi, if_neg hi']
          cases cs.getLast? with
          | none => exact ⟨rfl, rfl⟩
          | some sub =>
            simp only
            exact ⟨by rw [(ih ind (i + 1) sub).1], (ih ind (i + 1) sub).2⟩

theorem pushLoop_panic (cmd : Command D) (n : Nat) : ∀ (ind i : Nat) (x : Command D), i + (n + 1) = ind →
    (pushLoop ind cmd (n + 1) i x).2 ≠ .panic := by
  induction n with
  | zero =>
    intro ind i x h
    cases x with
    | mk t p =>
      rw [pushLoop]
      cases p.children with
      | none => simp only [ne_eq, reduceCtorEq, not_false_eq_true]
      | some cs =>
        have hi : i + 1 = ind := by omega
        simp only [if_pos hi, ne_eq, reduceCtorEq, not_false_eq_true]
  | succ n ih =>
    intro ind i x h
    cases x with
    | mk t p =>
      rw [pushLoop]
      cases p.children with
      | none => simp only [ne_eq, reduceCtorEq, not_false_eq_true]
      | some cs =>
        by_cases hi : i + 1 = ind
        · omega
        · simp only [if_neg hi]
          cases cs.getLast? with
          | none => simp only [ne_eq, reduceCtorEq, not_false_eq_true]
          | some sub => exact ih ind (i + 1) sub (by omega)

theorem pushLoop_err (cmd : Command D) (n : Nat) : ∀ (ind i : Nat) (x : Command D),
    (pushLoop ind cmd n i x).2.isOk = false → (pushLoop ind cmd n i x).1 = x := by
  induction n with
  | zero => intro ind i x _; simp only [pushLoop]
  | succ n ih =>
    intro ind i x h
    cases x with
    | mk t p =>
      rw [pushLoop] at h ⊢
      cases hp : p.children with
      | none => simp only
      | some cs =>
        simp only [hp] at h ⊢
        by_cases hi : i + 1 = ind
        · simp only [if_pos hi, Res.isOk, Bool.true_eq_false] at h
        · simp only [if_neg hi] at h ⊢
          cases hl : cs.getLast? with
          | none => simp only
          | some sub =>
            simp only [hl] at h ⊢
            rw [ih ind (i + 1) sub h]
            have : cs.dropLast ++ [sub] = cs := by
              have hne : cs ≠ [] := by intro h0; subst h0; simp at hl
              have hg := List.getLast?_eq_some_getLast hne
              rw [hl] at hg; injection hg with hg
              rw [hg]; exact List.dropLast_concat_getLast hne
            rw [this, set_children hp]

theorem tryPush_one (cs : List (Command D)) (c : Command D) : tryPush cs c 1 = (cs ++ [c], .ok ()) := by
  simp only [tryPush, if_true]

theorem tryPush_nil (c : Command D) {k : Nat} (h : k ≠ 1) : tryPush [] c k = ([], .err ⟨1, k⟩) := by
  simp only [tryPush, if_neg h, List.getLast?_nil]

theorem getLast?_snoc {α : Type} (l : List α) (a : α) : (l ++ [a]).getLast? = some a := by
  simp only [List.getLast?_append, List.getLast?_singleton, Option.some_or]

theorem dropLast_snoc {α : Type} (l : List α) (a : α) : (l ++ [a]).dropLast = l := by
  simp only [List.dropLast_concat]

/-- Pushing one level deeper pushes into the nested commands of the last command. -/
theorem tryPush_deeper (cs ds : List (Command D)) (t : Option Int32) (p : CmdProps D (Command D)) (c : Command D)
    (k : Nat) (hp : p.children = some ds) (hk : 1 ≤ k) :
    (tryPush (cs ++ [.mk t p]) c (k + 1)).1 = cs ++ [.mk t (p.setChildren (tryPush ds c k).1)] ∧
    (tryPush (cs ++ [.mk t p]) c (k + 1)).2.isOk = (tryPush ds c k).2.isOk := by
  have hk1 : ¬ k + 1 = 1 := by omega
  rw [tryPush, if_neg hk1, getLast?_snoc]
  simp only [dropLast_snoc]
  obtain ⟨m, rfl⟩ : ∃ m, k = m + 1 := ⟨k - 1, by omega⟩
  have e1 : m + 1 + 1 - 1 = m + 1 := by omega
  rw [e1, pushLoop]
  simp only [hp]
  by_cases hm : m = 0
  · subst hm
    simp only [Nat.zero_add, if_true, tryPush_one, and_self]
  · have h1 : ¬ 1 + 1 = m + 1 + 1 := by omega
    have h2 : ¬ m + 1 = 1 := by omega
    rw [tryPush, if_neg h2]
    simp only [if_neg h1]
    cases ds.getLast? with
    | none => exact ⟨by rw [set_children hp], rfl⟩
    | some sub =>
      have e2 : m + 1 - 1 = m := by omega
      simp only [e2]
      have := pushLoop_shift c m (m + 1) 1 sub
      rw [this.1, this.2]
      exact ⟨rfl, rfl⟩

/-- Pushing deeper than a last command that cannot hold commands. -/
theorem tryPush_leaf (cs : List (Command D)) (t : Option Int32) (p : CmdProps D (Command D)) (c : Command D)
    (k : Nat) (hp : p.children = none) (hk : 1 ≤ k) :
    tryPush (cs ++ [.mk t p]) c (k + 1) = (cs ++ [.mk t p], .err ⟨1, k + 1⟩) := by
  have hk1 : ¬ k + 1 = 1 := by omega
  rw [tryPush, if_neg hk1, getLast?_snoc]
  simp only [dropLast_snoc]
  obtain ⟨m, rfl⟩ : ∃ m, k = m + 1 := ⟨k - 1, by omega⟩
  have e1 : m + 1 + 1 - 1 = m + 1 := by omega
  rw [e1, pushLoop]
  simp only [hp]

theorem tryPush_err_same (cs : List (Command D)) (c : Command D) (k : Nat)
    (h : (tryPush cs c k).2.isOk = false) : (tryPush cs c k).1 = cs := by
  rw [tryPush] at h ⊢
  by_cases hk : k = 1
  · simp only [if_pos hk, Res.isOk, Bool.true_eq_false] at h
  · simp only [if_neg hk] at h ⊢
    rcases List.eq_nil_or_concat cs with rfl | ⟨cs', x, rfl⟩
    · simp only [List.getLast?_nil]
    · rw [List.concat_eq_append] at h ⊢
      simp only [getLast?_snoc, dropLast_snoc] at h ⊢
      rw [pushLoop_err c _ _ _ _ h]

theorem tryPush_no_panic (cs : List (Command D)) (c : Command D) (k : Nat) (hk : 1 ≤ k) :
    (tryPush cs c k).2 ≠ .panic := by
  rw [tryPush]
  by_cases h1 : k = 1
  · simp only [if_pos h1, ne_eq, reduceCtorEq, not_false_eq_true]
  · simp only [if_neg h1]
    cases cs.getLast? with
    | none => simp only [ne_eq, reduceCtorEq, not_false_eq_true]
    | some last =>
      simp only
      obtain ⟨m, rfl⟩ : ∃ m, k = m + 2 := ⟨k - 2, by omega⟩
      have e1 : m + 2 - 1 = m + 1 := by omega
      rw [e1]
      exact pushLoop_panic c m (m + 2) 1 last (by omega)

/-- What a refused push reports as the expected indentation. -/
def reported (l : List (Nat × Command D)) : Nat :=
  match l.getLast? with
  | none => 1
  | some (k, c) => if c.Holds then k - 1 else 1

theorem reported_append (l m : List (Nat × Command D)) (h : m ≠ []) : reported (l ++ m) = reported m := by
  have : (l ++ m).getLast? = m.getLast? := by
    rw [List.getLast?_append]
    rw [List.getLast?_eq_some_getLast h, Option.some_or]
  rw [reported, reported, this]

theorem listing_ne_nil {c : Command D} (k : Nat) : c.listing k ≠ [] := by
  cases c; rw [Command.listing_mk]; exact List.cons_ne_nil _ _

theorem pushLoop_reported (cmd : Command D) (n : Nat) : ∀ (ind i : Nat) (x : Command D) (e : PushErr),
    (pushLoop ind cmd n i x).2 = .err e → e.got = ind ∧ e.expected = reported (x.listing i) := by
  induction n with
  | zero => intro ind i x e h; simp only [pushLoop, reduceCtorEq] at h
  | succ n ih =>
    intro ind i x e h
    cases x with
    | mk t p =>
      rw [pushLoop] at h
      rw [Command.listing_mk, CmdProps.listing_children]
      cases hp : p.children with
      | none =>
        simp only [hp, Res.err.injEq] at h
        have hn : ¬ (Command.bare (.mk t p)).Holds := by
          rw [bare_holds, holds_iff]; simp only [Command.props, hp, reduceCtorEq, exists_false, not_false_eq_true]
        simp only [reported, List.getLast?_singleton, if_neg hn, ← h, and_self]
      | some cs =>
        have hy : (Command.bare (.mk t p)).Holds := by rw [bare_holds, holds_iff]; exact ⟨cs, hp⟩
        simp only [hp] at h ⊢
        by_cases hi : i + 1 = ind
        · simp only [if_pos hi, reduceCtorEq] at h
        · simp only [if_neg hi] at h
          rcases List.eq_nil_or_concat cs with rfl | ⟨cs', y, rfl⟩
          · simp only [List.getLast?_nil, Res.err.injEq] at h
            simp only [listing_nil, reported, List.getLast?_singleton, if_pos hy, ← h, and_self]
          · rw [List.concat_eq_append] at h ⊢
            simp only [getLast?_snoc] at h
            have := ih ind (i + 1) y e h
            rw [listing_append, listing_single, ← List.cons_append, reported_append _ _ (listing_ne_nil _)]
            exact this

theorem tryPush_reported (cs : List (Command D)) (c : Command D) (k : Nat) (e : PushErr)
    (h : (tryPush cs c k).2 = .err e) : e.got = k ∧ e.expected = reported (listing 1 cs) := by
  rw [tryPush] at h
  by_cases hk : k = 1
  · simp only [if_pos hk, reduceCtorEq] at h
  · simp only [if_neg hk] at h
    rcases List.eq_nil_or_concat cs with rfl | ⟨cs', x, rfl⟩
    · simp only [List.getLast?_nil, Res.err.injEq] at h
      simp only [listing_nil, reported, List.getLast?_nil, ← h, and_self]
    · rw [List.concat_eq_append] at h ⊢
      simp only [getLast?_snoc] at h
      rw [listing_append, listing_single, reported_append _ _ (listing_ne_nil _)]
      exact pushLoop_reported c _ _ _ _ _ h

/-! ### Listing after a push -/

theorem listing_snoc_mk (k : Nat) (cs : List (Command D)) (t : Option Int32) (p : CmdProps D (Command D)) :
    listing k (cs ++ [.mk t p]) = listing k cs ++ (k, Command.bare (.mk t p)) :: CmdProps.listing (k + 1) p := by
  rw [listing_append, listing_single, Command.listing_mk]

theorem deeper_append (l m : List (Nat × Command D)) : deeper (l ++ m) = deeper l ++ deeper m := by
  simp only [deeper, List.map_append]

/-- An accepted push appends to the listing. -/
theorem tryPush_ok_listing (c : Command D) (k : Nat) : ∀ (cs : List (Command D)), 1 ≤ k →
    (tryPush cs c k).2.isOk = true → listing 1 (tryPush cs c k).1 = listing 1 cs ++ c.listing k := by
  induction k with
  | zero => intro cs hk; omega
  | succ k ih =>
    intro cs _ h
    by_cases hk : k = 0
    · subst hk; rw [tryPush_one, listing_append, listing_single]
    · rcases List.eq_nil_or_concat cs with rfl | ⟨cs', x, rfl⟩
      · rw [tryPush_nil c (by omega)] at h; simp only [Res.isOk, Bool.false_eq_true] at h
      · rw [List.concat_eq_append] at h ⊢
        cases x with
        | mk t p =>
          cases hp : p.children with
          | none => rw [tryPush_leaf _ _ _ _ _ hp (by omega)] at h; simp only [Res.isOk, Bool.false_eq_true] at h
          | some ds =>
            have hd := tryPush_deeper cs' ds t p c k hp (by omega)
            rw [hd.2] at h
            rw [hd.1, listing_snoc_mk, listing_snoc_mk, bare_set, CmdProps.listing_children,
              CmdProps.listing_children, children_set _ hp, hp]
            simp only
            rw [listing_deeper 1 (tryPush ds c k).1, ih ds (by omega) h, deeper_append, listing_deeper 1 ds, c.listing_deeper k]
            simp only [List.append_assoc, List.cons_append]

theorem maxLevel_append (l m : List (Nat × Command D)) (h : m ≠ []) : maxLevel (l ++ m) = maxLevel m := by
  have : (l ++ m).getLast? = m.getLast? := by
    rw [List.getLast?_append]
    rw [List.getLast?_eq_some_getLast h, Option.some_or]
  rw [maxLevel, maxLevel, this]

theorem maxLevel_deeper (l : List (Nat × Command D)) (h : l ≠ []) : maxLevel (deeper l) = maxLevel l + 1 := by
  have : (deeper l).getLast? = l.getLast?.map fun x => (x.1 + 1, x.2) := by
    simp only [deeper, List.getLast?_map]
  rw [maxLevel, maxLevel, this, List.getLast?_eq_some_getLast h]
  simp only [Option.map_some]
  split <;> omega

theorem maxLevel_pos (l : List (Nat × Command D)) (h : ∀ x ∈ l, 1 ≤ x.1) : 1 ≤ maxLevel l := by
  rw [maxLevel]
  cases hl : l.getLast? with
  | none => exact Nat.le_refl 1
  | some x =>
    have := h x (List.mem_of_getLast? hl)
    simp only
    split <;> omega

theorem listing_levels (cs : List (Command D)) : ∀ x ∈ listing 1 cs, 1 ≤ x.1 := by
  intro x hx
  rw [listing_deeper] at hx
  simp only [deeper, List.mem_map] at hx
  obtain ⟨y, _, rfl⟩ := hx
  simp only; omega

/-- A push is accepted exactly up to the greatest level of the listing. -/
theorem tryPush_ok_iff (c : Command D) (k : Nat) : ∀ (cs : List (Command D)), 1 ≤ k →
    ((tryPush cs c k).2.isOk = true ↔ k ≤ maxLevel (listing 1 cs)) := by
  induction k with
  | zero => intro cs hk; omega
  | succ k ih =>
    intro cs _
    by_cases hk : k = 0
    · subst hk
      rw [tryPush_one]
      have := maxLevel_pos _ (listing_levels cs)
      simp only [Res.isOk, true_iff]; omega
    · rcases List.eq_nil_or_concat cs with rfl | ⟨cs', x, rfl⟩
      · rw [tryPush_nil c (by omega)]
        simp only [Res.isOk, Bool.false_eq_true, false_iff, listing_nil, maxLevel, List.getLast?_nil]; omega
      · rw [List.concat_eq_append]
        cases x with
        | mk t p =>
          rw [listing_snoc_mk, maxLevel_append _ _ (List.cons_ne_nil _ _), CmdProps.listing_children]
          cases hp : p.children with
          | none =>
            rw [tryPush_leaf _ _ _ _ _ hp (by omega)]
            have hn : ¬ (Command.bare (.mk t p)).Holds := by
              rw [bare_holds, holds_iff]; simp only [Command.props, hp, reduceCtorEq, exists_false, not_false_eq_true]
            simp only [Res.isOk, Bool.false_eq_true, false_iff, maxLevel, List.getLast?_singleton, if_neg hn]; omega
          | some ds =>
            rw [(tryPush_deeper cs' ds t p c k hp (by omega)).2, ih ds (by omega)]
            have hy : (Command.bare (.mk t p)).Holds := by
              rw [bare_holds, holds_iff]; exact ⟨ds, hp⟩
            simp only
            cases ds with
            | nil => simp only [listing_nil, maxLevel, List.getLast?_singleton, List.getLast?_nil, if_pos hy]; omega
            | cons d ds =>
              have hne : listing 1 (d :: ds) ≠ [] := by
                rw [listing_cons]; intro h0
                exact listing_ne_nil 1 (List.append_eq_nil_iff.mp h0).1
              rw [listing_deeper 1]
              have hne' : deeper (listing 1 (d :: ds)) ≠ [] := by
                simp only [deeper, ne_eq, List.map_eq_nil_iff]; exact hne
              have e : ∀ x, maxLevel (x :: deeper (listing 1 (d :: ds))) = maxLevel (listing 1 (d :: ds)) + 1 := by
                intro x
                rw [← List.singleton_append, maxLevel_append _ _ hne', maxLevel_deeper _ hne]
              rw [e]
              omega

/-! ### Rebuilding -/

theorem pushAll_append (l m : List (Nat × Command D)) : ∀ cs, pushAll cs (l ++ m) = (pushAll cs l).bind (pushAll · m) := by
  induction l with
  | nil => intro cs; rfl
  | cons x l ih =>
    intro cs
    obtain ⟨k, c⟩ := x
    simp only [List.cons_append, pushAll]
    split
    · exact ih _
    · rfl

/-- Pushing a listing one level deeper, after a command that can hold commands. -/
theorem pushAll_deeper (l : List (Nat × Command D)) : ∀ (cs ds es : List (Command D)) (t : Option Int32)
    (p : CmdProps D (Command D)), p.children = some ds → (∀ x ∈ l, 1 ≤ x.1) → pushAll ds l = some es →
    pushAll (cs ++ [.mk t p]) (deeper l) = some (cs ++ [.mk t (p.setChildren es)]) := by
  induction l with
  | nil =>
    intro cs ds es t p hp _ h
    simp only [pushAll, Option.some.injEq] at h
    subst h
    simp only [deeper, List.map_nil, pushAll, set_children hp]
  | cons x l ih =>
    intro cs ds es t p hp hl h
    obtain ⟨k, c⟩ := x
    have hk : 1 ≤ k := hl _ (List.mem_cons_self ..)
    simp only [pushAll] at h
    have hd := tryPush_deeper cs ds t p c k hp hk
    simp only [deeper, List.map_cons, pushAll]
    generalize hr : tryPush ds c k = r at h hd
    obtain ⟨ds', res⟩ := r
    cases res with
    | ok u =>
      simp only at h
      generalize hr' : tryPush (cs ++ [.mk t p]) c (k + 1) = r' at hd
      obtain ⟨cs', res'⟩ := r'
      simp only [Res.isOk] at hd
      cases res' with
      | ok u' =>
        simp only
        rw [hd.1]
        have := ih cs ds' es t (p.setChildren ds') (children_set _ hp) (fun x hx => hl x (List.mem_cons_of_mem _ hx)) h
        simp only [deeper] at this
        rw [this, set_set]
      | err e => simp only [Bool.false_eq_true, and_false] at hd
      | panic => simp only [Bool.false_eq_true, and_false] at hd
    | err e => simp only [reduceCtorEq] at h
    | panic => simp only [reduceCtorEq] at h

theorem pushAll_listing_of (cs : List (Command D))
    (h : ∀ c ∈ cs, ∀ acc, pushAll acc (c.listing 1) = some (acc ++ [c])) :
    ∀ acc, pushAll acc (listing 1 cs) = some (acc ++ cs) := by
  induction cs with
  | nil => intro acc; simp only [listing_nil, pushAll, List.append_nil]
  | cons c cs ih =>
    intro acc
    rw [listing_cons, pushAll_append, h c (List.mem_cons_self ..)]
    simp only [Option.bind_some]
    rw [ih (fun d hd => h d (List.mem_cons_of_mem _ hd)), List.append_assoc]; rfl

theorem pushAll_command (c : Command D) : ∀ acc, pushAll acc (c.listing 1) = some (acc ++ [c]) := by
  induction c using Command.rec' with
  | h t p ih =>
    intro acc
    rw [Command.listing_mk]
    simp only [pushAll, tryPush_one]
    rw [CmdProps.listing_children]
    cases hp : p.children with
    | none => simp only [pushAll, bare_none t hp]
    | some cs =>
      simp only
      rw [bare_children t hp, listing_deeper]
      have := pushAll_listing_of cs (ih cs hp) []
      rw [List.nil_append] at this
      rw [pushAll_deeper _ acc [] cs t (p.setChildren []) (children_set _ hp) (listing_levels cs) this, set_set,
        set_children hp]

theorem pushAll_listing (cs acc : List (Command D)) : pushAll acc (listing 1 cs) = some (acc ++ cs) :=
  pushAll_listing_of cs (fun c _ => pushAll_command c) acc

/-! ### Printing -/

section
variable [DecLib D]

/-- The lines of a listing. -/
def listLines (vars : List Variable) (l : List (Nat × Command D)) : List Str := l.map fun x => cmdLine vars x.1 x.2

omit [DecLib D] in
theorem cmdSize_mk (t : Option Int32) (p : CmdProps D (Command D)) :
    cmdSize (.mk t p) = 1 + match p.children with
      | some cs => cmdsSize cs
      | none => 0 := by
  cases p <;> simp only [cmdSize, propsSize, CmdProps.children]

omit [DecLib D] in
theorem cmdsSize_cons (c : Command D) (cs : List (Command D)) : cmdsSize (c :: cs) = cmdSize c + cmdsSize cs := by
  simp only [cmdsSize]

omit [DecLib D] in
theorem cmdsSize_nil : cmdsSize ([] : List (Command D)) = 0 := by simp only [cmdsSize]

omit [DecLib D] in
/-- Commands still to be printed after the current list. -/
def stackSize : List (List (Command D) × Nat × Nat) → Nat
  | [] => 0
  | (cs, i, _) :: st => cmdsSize (cs.drop i) + stackSize st

/-- Their lines. -/
def stackLines (vars : List Variable) : List (List (Command D) × Nat × Nat) → List Str
  | [] => []
  | (cs, i, k) :: st => listLines vars (listing k (cs.drop i)) ++ stackLines vars st

theorem listLines_append (vars : List Variable) (l m : List (Nat × Command D)) :
    listLines vars (l ++ m) = listLines vars l ++ listLines vars m := by
  simp only [listLines, List.map_append]

theorem listLines_cmd (vars : List Variable) (k : Nat) (c : Command D) :
    listLines vars (c.listing k) = cmdLine vars k c :: listLines vars (CmdProps.listing (k + 1) c.props) := by
  cases c with
  | mk t p =>
    rw [Command.listing_mk]
    simp only [listLines, List.map_cons, cmdLine, toStrVars_bare, Command.props]

theorem printLoop_eq (vars : List Variable) (fuel : Nat) : ∀ (cur : List (Command D)) (idx : Nat)
    (stack : List (List (Command D) × Nat × Nat)) (ind : Nat), idx < cur.length →
    (∀ f ∈ stack, f.2.1 < f.1.length) → cmdsSize (cur.drop idx) + stackSize stack ≤ fuel →
    printLoop vars fuel cur idx stack ind =
      some (listLines vars (listing ind (cur.drop idx)) ++ stackLines vars stack) := by
  induction fuel with
  | zero =>
    intro cur idx stack ind hi _ hf
    have hd := List.drop_eq_getElem_cons hi
    rw [hd, cmdsSize_cons] at hf
    generalize cur[idx] = x at hf
    cases x with | mk t p => rw [cmdSize_mk] at hf; omega
  | succ fuel ih =>
    intro cur idx stack ind hi hs hf
    have hd := List.drop_eq_getElem_cons hi
    have hg : cur[idx]? = some cur[idx] := List.getElem?_eq_getElem hi
    rw [printLoop, hg, hd, listing_cons, listLines_append, listLines_cmd]
    rw [hd, cmdsSize_cons] at hf
    generalize cur[idx] = x at hf ⊢
    cases x with
    | mk t p =>
      rw [cmdSize_mk] at hf
      simp only [Command.props]
      rw [CmdProps.listing_children]
      have leaf : (p.children = none ∨ p.children = some []) →
          (if idx + 1 ≥ cur.length then
            match (generalizing := false) stack with
            | (cur', idx', ind') :: stack' =>
              (printLoop vars fuel cur' idx' stack' ind').map (cmdLine vars ind (.mk t p) :: ·)
            | [] => some [cmdLine vars ind (.mk t p)]
          else (printLoop vars fuel cur (idx + 1) stack ind).map (cmdLine vars ind (.mk t p) :: ·)) =
          some (cmdLine vars ind (.mk t p) :: (listLines vars (listing ind (cur.drop (idx + 1))) ++
            stackLines vars stack)) := by
        intro _
        by_cases hlast : idx + 1 ≥ cur.length
        · rw [if_pos hlast, List.drop_eq_nil_of_le hlast, listing_nil]
          cases stack with
          | nil => simp only [listLines, stackLines, List.map_nil, List.nil_append]
          | cons f st =>
            obtain ⟨cur', idx', ind'⟩ := f
            simp only [stackSize] at hf
            simp only
            rw [ih cur' idx' st ind' (hs _ (List.mem_cons_self ..)) (fun f hf => hs f (List.mem_cons_of_mem _ hf))
              (by omega)]
            simp only [Option.map_some, stackLines, listLines, List.map_nil, List.nil_append]
        · rw [if_neg hlast, ih cur (idx + 1) stack ind (by omega) hs (by omega)]
          simp only [Option.map_some]
      cases hp : p.children with
      | none =>
        simp only
        refine (leaf (Or.inl hp)).trans ?_; rfl
      | some cs =>
        rw [hp] at hf
        simp only at hf
        cases cs with
        | nil =>
          simp only
          refine (leaf (Or.inr hp)).trans ?_; rw [listing_nil]; rfl
        | cons c cs =>
          simp only
          by_cases hlast : idx + 1 < cur.length
          · rw [if_pos hlast]
            rw [ih (c :: cs) 0 _ (ind + 1) (by simp) ?_ ?_]
            · simp only [Option.map_some, List.drop_zero, stackLines, List.cons_append, List.append_assoc]
            · intro f hf'
              rcases List.mem_cons.mp hf' with rfl | hf'
              · exact hlast
              · exact hs f hf'
            · simp only [List.drop_zero, stackSize]; omega
          · rw [if_neg hlast, List.drop_eq_nil_of_le (by omega), listing_nil]
            rw [ih (c :: cs) 0 _ (ind + 1) (by simp) hs ?_]
            · simp only [Option.map_some, List.drop_zero, listLines, List.map_nil, List.append_nil, List.cons_append]
            · simp only [List.drop_zero]; omega

theorem printCmds_eq (vars : List Variable) (cs : List (Command D)) :
    printCmds vars cs = some (listLines vars (listing 1 cs)) := by
  induction cs with
  | nil => rw [printCmds, listing_nil]; rfl
  | cons c cs ih =>
    rw [printCmds, listing_cons, listLines_append, listLines_cmd, CmdProps.listing_children]
    cases hp : c.props.children with
    | none =>
      simp only [ih, Option.map_some]; rfl
    | some ds =>
      cases ds with
      | nil => simp only [ih, Option.map_some, listing_nil]; rfl
      | cons d ds =>
        simp only
        rw [printLoop_eq vars _ (d :: ds) 0 [] 2 (by simp) (by simp) (by simp [stackSize]), ih]
        simp only [List.drop_zero, stackLines, List.append_nil, Option.bind_eq_bind, Option.bind_some, List.cons_append]

end

end Ev
end Osu
