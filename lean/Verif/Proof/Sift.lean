/-
Lines of a text taken out, repeated or put in another order.
-/
import Verif.Spec.Sift
import Verif.Proof.Cut
import Verif.Props.Concat

namespace Osu
open SB Ev Parser

theorem inked_eq (s : Str) : inked s = (lines s).filter nonBlank := rfl

/-- The value of an accepted line. -/
theorem accepted_all {E α : Type} {f : Str → Res E α} : ∀ {ls : List Str} {as : List α}, ls.map f = as.map .ok →
    ∀ l ∈ ls, ∃ a ∈ as, f l = .ok a
  | [], _, _, l, hl => by cases hl
  | x :: ls, [], h, l, hl => by simp at h
  | x :: ls, a :: as, h, l, hl => by
    simp only [List.map_cons, List.cons.injEq] at h
    rcases List.mem_cons.1 hl with rfl | hl
    · exact ⟨a, .head _, h.1⟩
    · obtain ⟨b, h1, h2⟩ := accepted_all h.2 l hl
      exact ⟨b, .tail _ h1, h2⟩

theorem accepted_vals {E α : Type} {f : Str → Res E α} : ∀ {ls : List Str} {as : List α}, (∀ l ∈ ls, ∃ a ∈ as, f l = .ok a) →
    ∃ bs : List α, ls.map f = bs.map .ok ∧ bs ⊆ as
  | [], _, _ => ⟨[], rfl, fun _ h => by cases h⟩
  | x :: ls, as, h => by
    obtain ⟨a, h1, h2⟩ := h x (.head _)
    obtain ⟨bs, h3, h4⟩ := accepted_vals fun l hl => h l (.tail _ hl)
    refine ⟨a :: bs, by rw [List.map_cons, List.map_cons, h2, h3], fun b hb => ?_⟩
    rcases List.mem_cons.1 hb with rfl | hb
    · exact h1
    · exact h4 hb

/-- The value, if there is one. -/
def Res.val? {E α : Type} : Res E α → Option α
  | .ok a => some a
  | _ => none

theorem vals_eq {E α : Type} {f : Str → Res E α} {ls : List Str} {as : List α} (h : ls.map f = as.map .ok) :
    ls.filterMap (fun l => (f l).val?) = as := by
  have : (ls.map f).filterMap Res.val? = (as.map (Res.ok (ε := E))).filterMap Res.val? := by rw [h]
  rw [List.filterMap_map, List.filterMap_map] at this
  have e : (Res.val? ∘ (Res.ok : α → Res E α)) = some := rfl
  rw [e, List.filterMap_some] at this
  exact this

theorem flatten_sublist {α : Type} {a b : List (List α)} (h : a.Sublist b) : a.flatten.Sublist b.flatten := by
  induction h with
  | slnil => exact .refl _
  | cons x _ ih => rw [List.flatten_cons]; exact ih.trans (List.sublist_append_right _ _)
  | cons_cons x _ ih => rw [List.flatten_cons, List.flatten_cons]; exact (List.Sublist.refl x).append ih

theorem parseLines_sift {E α : Type} {f : Str → Res E α} {s t : Str} {xs : List α} (h : parseLines f s = .ok xs)
    (ht : inked t ⊆ inked s) : ∃ ys, parseLines f t = .ok ys ∧ Sifted s t xs ys := by
  rw [parseLines_ok_iff, ← inked_eq] at h
  obtain ⟨ys, h1, h2⟩ := accepted_vals fun l hl => accepted_all h l (ht hl)
  refine ⟨ys, by rw [parseLines_ok_iff]; exact h1, h2, fun hs => ?_, fun hp => ?_⟩
  · rw [← vals_eq h, ← vals_eq h1]; exact hs.filterMap _
  · rw [← vals_eq h, ← vals_eq h1]; exact hp.filterMap _

theorem schema_sift {S : Schema} (hS : S.Lawful) {v : Nat} {s t : Str} {sec : S.Section} (h : S.fromStr v s = .ok sec)
    {es es' : List (KVLine × Str)} {r r' : Str} (hs : KVSplits s es r) (ht : KVSplits t es' r') (hr : Blank r')
    (hn : (es'.map fun e => e.1.key).Nodup) (hm : ∀ e ∈ es', ∃ e' ∈ es, e'.1 = e.1) :
    ∃ sec1, S.fromStr v t = .ok sec1 ∧ FieldsPart sec1 sec ∧ ((∀ e ∈ es, ∃ e' ∈ es', e'.1 = e.1) → sec1 = sec) := by
  obtain ⟨es0, r0, h1, hr0, h3, h4, h5⟩ := (C06_any_text_accepted hS v _ sec).1 h
  obtain ⟨rfl, rfl⟩ := kvSplits_unique hs h1
  classical
  refine ⟨fun k => if ∃ e ∈ es', e.1.key = S.name k then sec k else none, ?_, ?_, ?_⟩
  · refine (C06_any_text_accepted hS v _ _).2 ⟨es', r', ht, hr, hn, ?_, ?_⟩
    · intro e he
      obtain ⟨e', he', e1⟩ := hm e he
      obtain ⟨k, hk, hp⟩ := h4 e' he'
      rw [e1] at hk hp
      refine ⟨k, hk, ?_⟩
      rw [if_pos ⟨e, he, hk.symm⟩]; exact hp
    · intro k hk
      exact if_neg fun ⟨e, he, e1⟩ => hk e he e1
  · intro k x hx
    dsimp only at hx
    split at hx
    · exact hx
    · cases hx
  · intro hall
    funext k
    split
    · rfl
    · rename_i hno
      symm
      refine h5 k fun e he e1 => hno ?_
      obtain ⟨e', he', e2⟩ := hall e he
      exact ⟨e', he', by rw [e2]; exact e1⟩

section
variable {D : Type} [DecLib D] [UniLib]

theorem parseVars_app (v : Nat) (vars : List Variable) {a b : Str} (ha : NoEndCR a) (hb : Flush b) :
    (Events.parseVars v vars (a ++ '\n' :: b) : Res (LErr EvErr) (List (Event D))) =
      oneAfter (a.count '\n' + 1) (Events.parseVars v vars a) (Events.parseVars v vars b) := by
  have h : (Events.parseVars v vars (a ++ ['\n']) : Res (LErr EvErr) (List (Event D))) = Events.parseVars v vars a := by
    unfold Events.parseVars
    rcases lines_final_any ha with h | h <;> rw [h]
    exact evLoop_blank _ _ _ _ _
  rw [← h]
  unfold Events.parseVars
  rw [lines_append, loop_append, lines_fed _ a (Nat.le_refl _), Nat.zero_add]
  cases loop v vars 0 ([] : List (Event D)) (lines (a ++ ['\n'])) with
  | err e => rfl
  | panic => rfl
  | ok evs =>
    have := loop_pre (v := v) (vars := vars) (lines b) (a.count '\n' + 1) 0 evs [] (.inr hb)
    rw [List.append_nil, Nat.add_zero] at this
    exact this

omit [DecLib D] [UniLib] in
theorem join_more (sep : Str) : ∀ (bs : List Str) (b : Str), bs ≠ [] → join sep (bs ++ [b]) = join sep bs ++ sep ++ b
  | [], _, h => absurd rfl h
  | [x], b, _ => rfl
  | x :: y :: r, b, _ => by
    have := join_more sep (y :: r) b (by simp)
    simp only [List.cons_append] at this ⊢
    rw [join, this, join]
    simp

omit [DecLib D] [UniLib] in
theorem join_noEndCR : ∀ bs : List Str, (∀ b ∈ bs, NoEndCR b) → NoEndCR (join ['\n'] bs) := by
  intro bs h
  rcases List.eq_nil_or_concat bs with rfl | ⟨l, b, rfl⟩
  · simp [join, NoEndCR]
  · have hb := h b (by simp)
    by_cases hl : l = []
    · subst hl; exact hb
    · rw [List.concat_eq_append, join_more _ _ _ hl]
      unfold NoEndCR at hb ⊢
      rw [List.getLast?_append, List.getLast?_append]
      cases e : b.getLast? with
      | none => simp
      | some c => rw [e] at hb; simpa using hb

theorem blocks_iff (v : Nat) (vars : List Variable) (bs : List Str) (es : List (Event D)) (hb : ∀ b ∈ bs, NoEndCR b ∧ Flush b) :
    Events.parseVars v vars (join ['\n'] bs) = .ok es ↔
      ∃ ps : List (List (Event D)), bs.map (Events.parseVars v vars) = ps.map .ok ∧ es = ps.flatten := by
  obtain ⟨rs, rfl⟩ : ∃ rs : List Str, bs = rs.reverse := ⟨bs.reverse, by simp⟩
  induction rs generalizing es with
  | nil =>
    have e : (Events.parseVars v vars (join ['\n'] []) : Res (LErr EvErr) (List (Event D))) = .ok [] := rfl
    rw [List.reverse_nil, e]
    constructor
    · intro h; cases h; exact ⟨[], rfl, rfl⟩
    · rintro ⟨ps, h, rfl⟩
      cases ps with
      | nil => rfl
      | cons _ _ => simp at h
  | cons b rs ih =>
    rw [List.reverse_cons] at hb ⊢
    generalize rs.reverse = l at ih hb ⊢
    have hb1 : ∀ b ∈ l, NoEndCR b ∧ Flush b := fun x hx => hb x (by simp [hx])
    by_cases hl : l = []
    · subst hl
      simp only [List.nil_append, join, List.map_cons, List.map_nil]
      constructor
      · intro h; exact ⟨[es], by rw [h]; rfl, by simp⟩
      · rintro ⟨ps, h, rfl⟩
        match ps, h with
        | [p], h => simp at h; simp [h]
        | _ :: _ :: _, h => simp at h
    · rw [join_more _ _ _ hl, List.append_assoc, List.singleton_append, parseVars_app v vars (join_noEndCR l fun x hx => (hb1 x hx).1) (hb b (by simp)).2]
      constructor
      · intro h
        cases h1 : (Events.parseVars v vars (join ['\n'] l) : Res (LErr EvErr) (List (Event D))) with
        | err e => rw [h1] at h; cases h
        | panic => rw [h1] at h; cases h
        | ok x =>
          cases h2 : (Events.parseVars v vars b : Res (LErr EvErr) (List (Event D))) with
          | err e => rw [h1, h2] at h; cases h
          | panic => rw [h1, h2] at h; cases h
          | ok y =>
            rw [h1, h2] at h
            cases h
            obtain ⟨ps, h3, h4⟩ := (ih x hb1).1 h1
            exact ⟨ps ++ [y], by rw [List.map_append, List.map_append, h3]; simp [h2], by rw [h4]; simp⟩
      · rintro ⟨ps, h, rfl⟩
        rcases List.eq_nil_or_concat ps with rfl | ⟨qs, q, rfl⟩
        · simp at h
        · rw [List.concat_eq_append, List.map_append, List.map_append] at h
          obtain ⟨h1, h2⟩ := List.append_inj' h rfl
          rw [(ih qs.flatten hb1).2 ⟨qs, h1, rfl⟩]
          simp only [List.map_cons, List.map_nil, List.cons.injEq, and_true] at h2
          rw [h2]
          simp [oneAfter]

end

/-! ### Commands taken out -/

theorem Pruned.sublist {α : Type} {d : α → Nat} {a b : List α} (h : Pruned d a b) : b.Sublist a := by
  induction h with
  | nil => exact .refl _
  | keep x _ ih => exact ih.cons_cons x
  | drop x _ _ _ ih => exact (ih.trans (List.sublist_append_right _ _)).cons x

theorem pruned_split {α : Type} {d : α → Nat} {n : Nat} {s c : List α} (h : Pruned d s c) : ∀ {a b : List α}, s = a ++ b →
    (∀ x ∈ a, n < d x) → (∀ x, b.head? = some x → d x ≤ n) → ∃ c1 c2, c = c1 ++ c2 ∧ Pruned d a c1 ∧ Pruned d b c2 := by
  induction h with
  | nil =>
    intro a b e _ _
    obtain ⟨rfl, rfl⟩ := List.append_eq_nil_iff.1 e.symm
    exact ⟨[], [], rfl, .nil, .nil⟩
  | @keep x as bs h ih =>
    intro a b e ha hb
    cases a with
    | nil => rw [List.nil_append] at e; subst e; exact ⟨[], _, rfl, .nil, .keep x h⟩
    | cons y a =>
      rw [List.cons_append, List.cons.injEq] at e
      obtain ⟨rfl, e⟩ := e
      obtain ⟨c1, c2, rfl, h1, h2⟩ := ih e (fun z hz => ha z (.tail _ hz)) hb
      exact ⟨x :: c1, c2, rfl, .keep x h1, h2⟩
  | @drop x ms as bs hm hs h ih =>
    intro a b e ha hb
    cases a with
    | nil => rw [List.nil_append] at e; subst e; exact ⟨[], _, rfl, .nil, .drop x hm hs h⟩
    | cons y a =>
      rw [List.cons_append, List.cons.injEq] at e
      obtain ⟨rfl, e⟩ := e
      rcases List.append_eq_append_iff.1 e with ⟨u, rfl, rfl⟩ | ⟨w, rfl, rfl⟩
      · obtain ⟨c1, c2, rfl, h1, h2⟩ := ih rfl (fun z hz => ha z (.tail _ (List.mem_append_right _ hz))) hb
        refine ⟨c1, c2, rfl, .drop x hm ?_ h1, h2⟩
        intro z hz
        refine hs z ?_
        cases u with
        | nil => cases hz
        | cons _ _ => exact hz
      · cases w with
        | nil =>
          rw [List.append_nil] at hm
          exact ⟨[], bs, rfl, by simpa using Pruned.drop x (as := []) hm nofun .nil, by simpa using h⟩
        | cons z w =>
          exfalso
          have h1 := hb z rfl
          have h2 := hm z (by simp)
          have h3 := ha x (.head _)
          omega

/-- The rows that go with a row that is taken out. -/
theorem pruned_run {α : Type} {d : α → Nat} {n : Nat} {ms as a b : List α} (e : ms ++ as = a ++ b) (hm : ∀ m ∈ ms, n < d m)
    (hs : ∀ x, as.head? = some x → d x ≤ n) (ha : ∀ x ∈ a, n < d x) (hb : ∀ x, b.head? = some x → d x ≤ n) : ms = a ∧ as = b := by
  rcases List.append_eq_append_iff.1 e with ⟨u, rfl, rfl⟩ | ⟨u, rfl, rfl⟩
  · cases u with
    | nil => simp
    | cons z u =>
      have h1 := hs z rfl
      have h2 := ha z (by simp)
      omega
  · cases u with
    | nil => simp
    | cons z u =>
      have h1 := hb z rfl
      have h2 := hm z (by simp)
      omega

section
variable {D : Type}

mutual
theorem SB.Command.listing_ge (c : Command D) (k : Nat) : ∀ x ∈ c.listing k, k ≤ x.1 := by
  match c with
  | .mk t p =>
    intro x hx
    rw [Command.listing] at hx
    rcases List.mem_cons.1 hx with rfl | hx
    · exact Nat.le_refl _
    · cases hp : p with
      | loop a cs =>
        rw [hp, CmdProps.listing] at hx
        have := SB.listing_ge cs (k + 1) x hx
        omega
      | trigger a b d cs =>
        rw [hp, CmdProps.listing] at hx
        have := SB.listing_ge cs (k + 1) x hx
        omega
      | _ => rw [hp] at hx; simp [CmdProps.listing] at hx
theorem SB.listing_ge (cs : List (Command D)) (k : Nat) : ∀ x ∈ listing k cs, k ≤ x.1 := by
  match cs with
  | [] => intro x hx; simp [listing] at hx
  | c :: cs =>
    intro x hx
    rw [listing] at hx
    rcases List.mem_append.1 hx with hx | hx
    · exact SB.Command.listing_ge c k x hx
    · exact SB.listing_ge cs k x hx
end

theorem SB.listing_first (cs : List (Command D)) (k : Nat) : ∀ x, (listing k cs).head? = some x → x.1 ≤ k := by
  intro x hx
  match cs with
  | [] => simp [listing] at hx
  | .mk t p :: cs =>
    rw [listing, Command.listing] at hx
    cases hx
    exact Nat.le_refl _

theorem SB.Command.listing_head (c : Command D) (k : Nat) : c.listing k = (k, c.bare) :: (c.listing k).tail := by
  match c with
  | .mk t p => rw [Command.listing]; rfl

theorem SB.Command.listing_below (c : Command D) (k : Nat) : ∀ x ∈ (c.listing k).tail, k < x.1 := by
  match c with
  | .mk t p =>
    intro x hx
    rw [Command.listing, List.tail_cons] at hx
    cases hp : p with
    | loop a cs => rw [hp, CmdProps.listing] at hx; exact SB.listing_ge cs (k + 1) x hx
    | trigger a b d cs => rw [hp, CmdProps.listing] at hx; exact SB.listing_ge cs (k + 1) x hx
    | _ => rw [hp] at hx; simp [CmdProps.listing] at hx

theorem pruned_nil {α : Type} {d : α → Nat} {ys : List α} (h : Pruned d [] ys) : ys = [] := by
  generalize e : ([] : List α) = s at h
  cases h with
  | nil => rfl
  | keep => cases e
  | drop => cases e

mutual
theorem SB.Command.listing_pruned (c : Command D) (k : Nat) (ys : List (Nat × Command D)) (h : Pruned Prod.fst (c.listing k).tail ys) :
    ∃ c' : Command D, c'.listing k = (k, c.bare) :: ys := by
  match c with
  | .mk t p =>
    cases hp : p with
    | loop a cs =>
      rw [hp, Command.listing, List.tail_cons, CmdProps.listing] at h
      obtain ⟨cs', h'⟩ := SB.listing_pruned cs (k + 1) ys h
      exact ⟨.mk t (.loop a cs'), by simp only [Command.listing, CmdProps.listing, Command.bare, h']⟩
    | trigger a b d cs =>
      rw [hp, Command.listing, List.tail_cons, CmdProps.listing] at h
      obtain ⟨cs', h'⟩ := SB.listing_pruned cs (k + 1) ys h
      exact ⟨.mk t (.trigger a b d cs'), by simp only [Command.listing, CmdProps.listing, Command.bare, h']⟩
    | _ =>
      rw [hp, Command.listing, List.tail_cons, CmdProps.listing] at h
      · rw [pruned_nil h]
        exact ⟨.mk t p, by rw [hp, Command.listing, CmdProps.listing] <;> simp⟩
      all_goals simp
theorem SB.listing_pruned (cs : List (Command D)) (k : Nat) (ys : List (Nat × Command D)) (h : Pruned Prod.fst (listing k cs) ys) :
    ∃ cs' : List (Command D), listing k cs' = ys := by
  match cs with
  | [] => rw [listing] at h; exact ⟨[], by rw [pruned_nil h, listing]⟩
  | c :: cs =>
    rw [listing, SB.Command.listing_head, List.cons_append] at h
    have hb := SB.Command.listing_below c k
    have hf := SB.listing_first cs k
    generalize e : (k, c.bare) :: ((c.listing k).tail ++ listing k cs) = s at h
    cases h with
    | nil => cases e
    | @keep x as bs h =>
      rw [List.cons.injEq] at e
      obtain ⟨rfl, rfl⟩ := e
      obtain ⟨c1, c2, rfl, h1, h2⟩ := pruned_split h rfl hb hf
      obtain ⟨c', h3⟩ := SB.Command.listing_pruned c k c1 h1
      obtain ⟨cs', h4⟩ := SB.listing_pruned cs k c2 h2
      exact ⟨c' :: cs', by rw [listing, h3, h4, List.cons_append]⟩
    | @drop x ms as bs hm hs h =>
      rw [List.cons.injEq] at e
      obtain ⟨rfl, e⟩ := e
      obtain ⟨-, rfl⟩ := pruned_run e.symm hm hs hb hf
      exact SB.listing_pruned cs k ys h
end

/-- Rows that are read line by line are taken out like the lines. -/
theorem cmdLines_pruned {R : Str → Nat × Command D → Prop} (hR : ∀ l x, R l x → indentOf l = x.1) {ls b : List Str} (h : Pruned indentOf ls b) :
    ∀ {xs : List (Nat × Command D)}, CmdLines R ls xs → ∃ ys, Pruned Prod.fst xs ys ∧ CmdLines R b ys ∧ (b.zip ys).Sublist (ls.zip xs) := by
  induction h with
  | nil => intro xs hx; cases hx; exact ⟨[], .nil, .nil, .refl _⟩
  | keep x h ih =>
    intro xs hx
    cases hx with
    | cons h1 h2 =>
      obtain ⟨ys, h3, h4, h5⟩ := ih h2
      exact ⟨_, .keep _ h3, .cons h1 h4, h5.cons_cons _⟩
  | @drop x ms as bs hm hs h ih =>
    intro xs hx
    cases hx with
    | @cons _ r _ rs h1 h2 =>
      obtain ⟨us, ws, rfl, h3, h4⟩ : ∃ us ws, rs = us ++ ws ∧ CmdLines R ms us ∧ CmdLines R as ws := by
        clear ih hm
        induction ms generalizing rs with
        | nil => exact ⟨[], rs, rfl, .nil, h2⟩
        | cons m ms ihm =>
          cases h2 with
          | cons g1 g2 =>
            obtain ⟨us, ws, rfl, g3, g4⟩ := ihm g2
            exact ⟨_ :: us, ws, rfl, .cons g1 g3, g4⟩
      obtain ⟨ys, h5, h6, h7⟩ := ih h4
      refine ⟨ys, .drop r ?_ ?_ h5, h6, ?_⟩
      · rw [← hR _ _ h1]
        clear h2
        induction h3 with
        | nil => nofun
        | @cons l y ls' xs' g1 g2 ihg =>
          intro u hu
          rcases List.mem_cons.1 hu with rfl | hu
          · rw [← hR _ _ g1]; exact hm _ (.head _)
          · exact ihg (fun m hm' => hm m (.tail _ hm')) u hu
      · intro a ha
        cases h4 with
        | nil => cases ha
        | cons g1 g2 =>
          cases ha
          rw [← hR _ _ g1, ← hR _ _ h1]
          exact hs _ rfl
      · rw [List.zip_cons_cons, List.zip_append (cmdLines_len h3)]
        exact (h7.trans (List.sublist_append_right _ _)).cons _

theorem cmdLines_deep {R : Str → Nat × Command D → Prop} (hR : ∀ l x, R l x → 1 ≤ x.1 ∧ indentOf l = x.1) {ls : List Str}
    {xs : List (Nat × Command D)} (h : CmdLines R ls xs) : ∀ l ∈ ls, 0 < indentOf l := by
  induction h with
  | nil => nofun
  | @cons l x ls xs h1 h2 ih =>
    intro u hu
    rcases List.mem_cons.1 hu with rfl | hu
    · have := hR _ _ h1; omega
    · exact ih u hu

variable [DecLib D]

theorem headReads_noIndent {v : Nat} {l : Str} {e : Event D} (h : HeadReads v l e) : indentOf l = 0 := by
  cases h with
  | comment s => rfl
  | event h =>
    obtain ⟨c, t, rfl, -, h2, -⟩ := evReads_first h
    have h2' : (c == ' ' || c == '_') = false := h2
    simp only [indentOf, List.takeWhile_cons, h2', List.length_nil, Bool.false_eq_true, if_false]

theorem sectionReads_flush {v : Nat} {R : Str → Nat × Command D → Prop} {ls : List Str} {evs : List (Event D)} (h : SectionReads v R ls evs) :
    ∀ l, ls.head? = some l → indentOf l ≤ 0 := by
  intro l hl
  cases h with
  | nil => cases hl
  | cons hh _ _ => cases hl; exact Nat.le_of_eq (headReads_noIndent hh)

theorem sectionReads_rows {v : Nat} {R : Str → Nat × Command D → Prop} {ls : List Str} {evs : List (Event D)} (h : SectionReads v R ls evs) :
    ls.length = (evRows evs).length := by
  induction h with
  | nil => rfl
  | cons hh hc hs ih =>
    unfold evRows at ih ⊢
    rw [List.flatMap_cons, List.length_append, List.length_cons, List.length_cons, List.length_append, cmdLines_len hc, ih, List.length_map]
    omega

theorem zip_rows {x : Event D} {hd : Str} {cls ls : List Str} {rs : List (Nat × Command D)} {ts : List (Event D ⊕ Nat × Command D)}
    (h : cls.length = rs.length) : (hd :: (cls ++ ls)).zip ((.inl x :: rs.map .inr) ++ ts) =
      (hd, .inl x) :: ((cls.zip rs).map (Prod.map id .inr) ++ ls.zip ts) := by
  rw [List.cons_append, List.zip_cons_cons, List.zip_append (by rw [List.length_map, h]), List.zip_map_right]

theorem sectionReads_pruned {v : Nat} {R : Str → Nat × Command D → Prop} (hR : ∀ l x, R l x → 1 ≤ x.1 ∧ indentOf l = x.1) {ls : List Str}
    {evs : List (Event D)} (h : SectionReads v R ls evs) : ∀ {b : List Str}, Pruned indentOf ls b →
    ∃ evs1, SectionReads v R b evs1 ∧ (b.zip (evRows evs1)).Sublist (ls.zip (evRows evs)) := by
  induction h with
  | nil => intro b hb; rw [pruned_nil hb]; exact ⟨[], .nil, .refl _⟩
  | @cons hd cls ls e evs hh hc hs ih =>
    intro b hb
    have hdeep := cmdLines_deep hR hc
    have hst := sectionReads_flush hs
    generalize es : hd :: (cls ++ ls) = s at hb
    cases hb with
    | nil => cases es
    | @keep x as bs hb =>
      rw [List.cons.injEq] at es
      obtain ⟨rfl, rfl⟩ := es
      obtain ⟨b1, b2, rfl, h1, h2⟩ := pruned_split (n := 0) hb rfl hdeep hst
      obtain ⟨evs1, h3, h4⟩ := ih h2
      obtain ⟨ys, h5, h6, h7⟩ := cmdLines_pruned (fun l x h => (hR l x h).2) h1 hc
      cases hcs : e.commands with
      | none =>
        rw [hcs] at h5
        have hy : ys = [] := by
          rw [show listing 1 ((none : Option (List (Command D))).getD []) = [] by rfl] at h5
          exact pruned_nil h5
        subst hy
        refine ⟨e :: evs1, .cons hh (by rw [hcs]; exact h6) h3, ?_⟩
        have e0 : listing 1 ((none : Option (List (Command D))).getD []) = [] := rfl
        rw [hcs, e0] at hc h7
        unfold evRows at h4 ⊢
        rw [List.flatMap_cons, List.flatMap_cons, hcs, e0, zip_rows (cmdLines_len h6), zip_rows (cmdLines_len hc)]
        exact ((h7.map _).append h4).cons_cons _
      | some cs =>
        rw [hcs, Option.getD_some] at h5
        obtain ⟨cs', hcs'⟩ := SB.listing_pruned cs 1 ys h5
        have hce : (e.setCommands cs').commands = some cs' := commands_set hcs cs'
        refine ⟨e.setCommands cs' :: evs1, .cons (by rw [set_setCommands]; exact hh) (by rw [hce, Option.getD_some, hcs']; exact h6) h3, ?_⟩
        unfold evRows at h4 ⊢
        rw [hcs, Option.getD_some] at hc h7
        rw [List.flatMap_cons, List.flatMap_cons, set_setCommands, hce, hcs, Option.getD_some, Option.getD_some, hcs',
          zip_rows (cmdLines_len h6), zip_rows (cmdLines_len hc)]
        exact ((h7.map _).append h4).cons_cons _
    | @drop x ms as bs hm ha hb =>
      rw [List.cons.injEq] at es
      obtain ⟨rfl, es⟩ := es
      rw [headReads_noIndent hh] at hm ha
      obtain ⟨rfl, rfl⟩ := pruned_run es.symm hm ha hdeep hst
      obtain ⟨evs1, h3, h4⟩ := ih hb
      refine ⟨evs1, h3, h4.trans ?_⟩
      unfold evRows
      rw [List.flatMap_cons, zip_rows (cmdLines_len hc)]
      exact (List.sublist_append_right _ _).cons _

theorem events_pruned [UniLib] {v : Nat} {vars : List Variable} {s t : Str} {es : List (Event D)}
    (h : Events.parseVars v vars s = .ok es) (ht : Pruned indentOf (inked s) (inked t)) :
    ∃ es1 : List (Event D), Events.parseVars v vars t = .ok es1 ∧ (inked t).length = (evRows es1).length ∧ (inked s).length = (evRows es).length ∧
      ((inked t).zip (evRows es1)).Sublist ((inked s).zip (evRows es)) := by
  rw [events_vars_reads, contentLines_eq, ← inked_eq] at h
  obtain ⟨es1, h1, h2⟩ := sectionReads_pruned (fun l x hx => ⟨hx.1, hx.2.1⟩) h ht
  exact ⟨es1, by rw [events_vars_reads, contentLines_eq, ← inked_eq]; exact h1, sectionReads_rows h1, sectionReads_rows h, h2⟩

end

end Osu
