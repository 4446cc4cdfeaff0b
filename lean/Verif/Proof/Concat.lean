/-
Reading texts one after the other.
-/
import Verif.Spec.Concat
import Verif.Proof.EventsPanic
import Verif.Proof.KVGrammar

namespace Osu
open SB Ev

theorem lines_fed : ∀ (n : Nat) (a : Str), a.length ≤ n → (lines (a ++ ['\n'])).length = a.count '\n' + 1 := by
  intro n
  induction n with
  | zero => 
    intro a h
    cases a with
    | nil => rfl
    | cons c a => cases h
  | succ n ih =>
    intro a h
    by_cases hm : '\n' ∈ a
    · obtain ⟨x, y, rfl⟩ := List.append_of_mem hm
      simp only [List.length_append, List.length_cons] at h
      rw [List.append_assoc, List.cons_append, lines_append, List.length_append, ih x (by omega), ih y (by omega)]
      simp only [List.count_append, List.count_cons_self]
      omega
    · rw [List.count_eq_zero.2 hm]
      have h : NoLF a := fun c hc => by
        have : c ≠ '\n' := fun e => hm (e ▸ hc)
        simp [this]
      unfold lines
      rw [splitNL_append_nl h]
      rfl

theorem lineLoop_app {E α : Type} (f : Str → Res E α) (b : List Str) : ∀ (a : List Str) (n : Nat),
    lineLoop f n (a ++ b) = oneAfter (n + a.length) (lineLoop f n a) (lineLoop f 0 b) := by
  have sh : ∀ (b : List Str) (n k : Nat), lineLoop f (n + k) b = oneAfter n (.ok []) (lineLoop f k b) := by
    intro b
    induction b with
    | nil => intro n k; rfl
    | cons l b ih =>
      intro n k
      by_cases hl : trim l = []
      · simp only [lineLoop, hl, if_true, Nat.add_assoc, ih]
      · simp only [lineLoop, hl, if_false]
        cases f l with
        | err e => simp [oneAfter, Nat.add_comm]
        | panic => rfl
        | ok x =>
          have := ih n (k + 1)
          rw [Nat.add_assoc, this]
          cases lineLoop f (k + 1) b <;> rfl
  intro a
  induction a with
  | nil =>
    intro n
    have := sh b n 0
    simpa [lineLoop] using this
  | cons l a ih =>
    intro n
    by_cases hl : trim l = []
    · simp only [List.cons_append, lineLoop, hl, if_true, ih, List.length_cons]
      congr 1; omega
    · simp only [List.cons_append, lineLoop, hl, if_false]
      cases f l with
      | err e => rfl
      | panic => rfl
      | ok x =>
        simp only [ih, List.length_cons, Nat.add_assoc, Nat.add_comm 1]
        cases lineLoop f (n + 1) a with
        | err e => rfl
        | panic => rfl
        | ok xs => cases lineLoop f 0 b <;> rfl

section
variable {D : Type} [DecLib D] [UniLib] {v : Nat} {vars : List Variable}

theorem step_pre {pre evs : List (Event D)} {l : Str}
    (h : evs ≠ [] ∨ trim l = [] ∨ (l.head? ≠ some ' ' ∧ l.head? ≠ some '_')) :
    step v vars (pre ++ evs) l = (step v vars evs l).bind fun e => .ok (pre ++ e) := by
  unfold step
  by_cases hb : trim l = []
  · simp only [hb, if_true]; rfl
  · simp only [hb, if_false]
    cases stripPrefix c!"//" l with
    | some c => simp [Res.bind]
    | none =>
      simp only
      by_cases hi : (l.takeWhile Command.isIndent).length > 0
      · have he : evs ≠ [] := by
          rcases h with h | h | ⟨h1, h2⟩
          · exact h
          · exact absurd h hb
          · cases l with
            | nil => cases hi
            | cons c l =>
              have : Command.isIndent c = false := by
                simp only [List.head?_cons, ne_eq, Option.some.injEq] at h1 h2
                simp [Command.isIndent, h1, h2]
              simp [List.takeWhile, this] at hi
        simp only [hi, if_true]
        unfold stepCmd
        have hg : (pre ++ evs).getLast? = evs.getLast? := by
          rw [List.getLast?_append]
          cases hx : evs.getLast? with
          | none => exact absurd (List.getLast?_eq_none_iff.1 hx) he
          | some x => rfl
        have hd : (pre ++ evs).dropLast = pre ++ evs.dropLast := List.dropLast_append_of_ne_nil he
        rw [hg, hd]
        cases evs.getLast? with
        | none => rfl
        | some e =>
          simp only
          cases e.commands with
          | none => rfl
          | some cs =>
            simp only
            cases (cmdParse vars l : Res EvErr (Command D)) with
            | err e => rfl
            | panic => rfl
            | ok c =>
              simp only
              rcases tryPush cs c (l.takeWhile Command.isIndent).length with ⟨cs', u | er | _⟩ <;> simp [Res.bind]
      · simp only [hi, if_false]
        cases (parseEvent v l : Res EvErr (Event D)) <;> simp [Res.bind]

theorem step_ne {evs evs' : List (Event D)} {l : Str} (h : step v vars evs l = .ok evs') (hb : trim l ≠ []) : evs' ≠ [] := by
  unfold step at h
  simp only [hb, if_false] at h
  cases hs : stripPrefix c!"//" l with
  | some c => rw [hs] at h; cases h; simp
  | none =>
    rw [hs] at h
    simp only at h
    split at h
    · unfold stepCmd at h
      repeat' (split at h)
      all_goals first | cases h; simp | cases h
    · split at h <;> cases h
      simp

theorem loop_pre (b : List Str) : ∀ (n k : Nat) (pre evs : List (Event D)),
    (evs ≠ [] ∨ ∀ p l q, b = p ++ l :: q → (∀ x ∈ p, trim x = []) → trim l ≠ [] → l.head? ≠ some ' ' ∧ l.head? ≠ some '_') →
    loop v vars (n + k) (pre ++ evs) b = oneAfter n (.ok pre) (loop v vars k evs b) := by
  induction b with
  | nil => intro n k pre evs _; rfl
  | cons l b ih =>
    intro n k pre evs h
    have hs : evs ≠ [] ∨ trim l = [] ∨ (l.head? ≠ some ' ' ∧ l.head? ≠ some '_') := by
      rcases h with h | h
      · exact .inl h
      · by_cases hl : trim l = []
        · exact .inr (.inl hl)
        · exact .inr (.inr (h [] l b rfl (by simp) hl))
    simp only [loop, step_pre hs]
    cases hx : step v vars evs l with
    | err e => simp [Res.bind, oneAfter, Nat.add_comm]
    | panic => rfl
    | ok evs' =>
      simp only [Res.bind, Nat.add_assoc]
      refine ih n (k + 1) pre evs' ?_
      by_cases hl : trim l = []
      · have : evs' = evs := by
          unfold step at hx
          simp only [hl, if_true] at hx
          cases hx; rfl
        subst this
        rcases h with h | h
        · exact .inl h
        · refine .inr fun p m q hb hp hm => h (l :: p) m q (by rw [hb]; rfl) ?_ hm
          intro x hx
          rcases List.mem_cons.1 hx with rfl | hx
          · exact hl
          · exact hp x hx
      · exact .inl (step_ne hx hl)

end

theorem kvEntries_app {s b r r' : Str} {es es' : List (KVLine × Str)} (h : KVEntries s es r) (hr : r = []) (hne : es ≠ [])
    (hb : HeadNot Parser.isMultispace b) (h' : KVEntries b es' r') :
    ∃ es0 l gap, es = es0 ++ [(l, gap)] ∧ KVEntries (s ++ '\n' :: b) (es0 ++ (l, gap ++ ['\n']) :: es') r' := by
  induction h with
  | nil r => exact absurd rfl hne
  | @cons l gap s es r hk hw hv hh hg hbr hs he h ih =>
    by_cases hes : es = []
    · subst hes
      have : s = [] := by
        subst hr
        generalize hz : ([] : List (KVLine × Str)) = z at h
        cases h with
        | nil => rfl
        | cons => cases hz
      subst this
      refine ⟨[], l, gap, rfl, ?_⟩
      have e : l.text ++ (gap ++ []) ++ '\n' :: b = l.text ++ ((gap ++ ['\n']) ++ b) := by simp
      rw [e]
      refine .cons hk hw hv hh ?_ ?_ hb (fun h => by simp at h) h'
      · intro c hc
        rcases List.mem_append.1 hc with hc | hc
        · exact hg c hc
        · simp only [List.mem_singleton] at hc; subst hc; decide
      · cases gap with
        | nil => intro c t e; cases e; rfl
        | cons c g => intro c' t e; cases e; exact hbr _ _ rfl
    · obtain ⟨es0, l', gap', rfl, h2⟩ := ih hr hes
      refine ⟨(l, gap) :: es0, l', gap', rfl, ?_⟩
      have hsne : s ≠ [] := by
        rintro rfl
        generalize hz : ([] : Str) = z at h
        generalize hy : es0 ++ [(l', gap')] = y at h
        cases h with
        | nil => simp at hy
        | @cons l gap s es r _ _ _ _ _ _ _ _ _ =>
          have := congrArg List.length hz
          simp [KVLine.text] at this
      rw [List.append_assoc, List.append_assoc]
      refine .cons hk hw hv hh hg hbr ?_ (fun e => absurd (he e) hsne) h2
      cases s with
      | nil => exact absurd rfl hsne
      | cons c s => intro c' t e; cases e; exact hs _ _ rfl

theorem keysOf_app {a b : Str} {ks js : List Str} (ha : KeysOf a ks) (hne : ks ≠ []) (hb : HeadNot Parser.isMultispace b)
    (hj : KeysOf b js) : KeysOf (a ++ '\n' :: b) (ks ++ js) := by
  obtain ⟨es, ⟨he, _⟩, rfl⟩ := ha
  obtain ⟨es', ⟨he', hn⟩, rfl⟩ := hj
  obtain ⟨es0, l, gap, rfl, h⟩ := kvEntries_app he rfl (by rintro rfl; exact hne rfl) hb he'
  exact ⟨_, ⟨h, hn⟩, by simp⟩

theorem Schema.fromStr_app {S : Schema} (hS : S.Lawful) (v : Nat) {a b : Str} {ks js : List Str} (ha : KeysOf a ks) (hne : ks ≠ [])
    (hb : HeadNot Parser.isMultispace b) (hj : KeysOf b js) (h : S.Section) :
    S.fromStr v (a ++ '\n' :: b) = .ok h ↔ (∀ k ∈ ks, k ∉ js) ∧
      ∃ f g : S.Section, S.fromStr v a = .ok f ∧ S.fromStr v b = .ok g ∧ h = fun k => (f k).or (g k) := by
  obtain ⟨es, ⟨he, hn0⟩, rfl⟩ := ha
  obtain ⟨es', ⟨he', hn⟩, rfl⟩ := hj
  obtain ⟨es0, l, gap, rfl, hc⟩ := kvEntries_app he rfl (by rintro rfl; exact hne rfl) hb he'
  have tn : trim [] = [] := rfl
  have split : ∀ {s : Str} {es : List (KVLine × Str)} (_ : KVSplits s es []) (sec : S.Section), S.fromStr v s = .ok sec ↔
      (es.map fun e => e.1.key).Nodup ∧ (∀ e ∈ es, ∃ k, S.name k = e.1.key ∧ S.parse k v e.1.value = .ok (sec k)) ∧
      (∀ k, (∀ e ∈ es, e.1.key ≠ S.name k) → sec k = none) := by
    intro s es hs sec
    rw [Schema.fromStr_ok_iff hS]
    constructor
    · rintro ⟨es2, r2, h1, -, h2⟩
      obtain ⟨rfl, rfl⟩ := kvSplits_unique h1 hs
      exact h2
    · exact fun h => ⟨es, [], hs, tn, h⟩
  rw [split ⟨hc, hn⟩]
  have em : ∀ (P : KVLine → Prop), (∀ e ∈ es0 ++ (l, gap ++ ['\n']) :: es', P e.1) ↔
      (∀ e ∈ es0 ++ [(l, gap)], P e.1) ∧ ∀ e ∈ es', P e.1 := by
    intro P
    simp only [List.mem_append, List.mem_cons, List.not_mem_nil, or_false]
    constructor
    · intro h
      refine ⟨?_, fun e he => h e (.inr (.inr he))⟩
      rintro e (he | rfl)
      · exact h e (.inl he)
      · exact h (l, gap ++ ['\n']) (.inr (.inl rfl))
    · rintro ⟨h1, h2⟩ e (he | rfl | he)
      · exact h1 e (.inl he)
      · exact h1 (l, gap) (.inr rfl)
      · exact h2 e he
  have kn : (es0 ++ (l, gap ++ ['\n']) :: es').map (fun e => e.1.key) =
      (es0 ++ [(l, gap)]).map (fun e => e.1.key) ++ es'.map fun e => e.1.key := by simp
  rw [kn, em (fun l => ∃ k, S.name k = l.key ∧ S.parse k v l.value = .ok (h k))]
  have kk : (∀ k, (∀ e ∈ es0 ++ (l, gap ++ ['\n']) :: es', e.1.key ≠ S.name k) → h k = none) ↔
      ∀ k, ((∀ e ∈ es0 ++ [(l, gap)], e.1.key ≠ S.name k) ∧ ∀ e ∈ es', e.1.key ≠ S.name k) → h k = none :=
    forall_congr' fun k => by rw [em (fun l => l.key ≠ S.name k)]
  rw [kk]
  clear kk em kn hc
  generalize es0 ++ [(l, gap)] = es at *
  have nm : ∀ (es : List (KVLine × Str)) (k : S.Key), (∀ e ∈ es, e.1.key ≠ S.name k) ↔ S.name k ∉ es.map fun e => e.1.key := by
    intro es k
    simp only [List.mem_map, not_exists, not_and, ne_eq]
  constructor
  · rintro ⟨h1, ⟨h2, h3⟩, h4⟩
    obtain ⟨n1, n2, n3⟩ := List.nodup_append.1 h1
    have hd : ∀ k ∈ es.map (fun e => e.1.key), k ∉ es'.map fun e => e.1.key := fun k hk hk' => n3 k hk k hk' rfl
    refine ⟨hd, fun k => if S.name k ∈ es.map (fun e => e.1.key) then h k else none,
      fun k => if S.name k ∈ es'.map (fun e => e.1.key) then h k else none, ?_, ?_, ?_⟩
    · refine (split ⟨he, hn0⟩ _).2 ?_
      refine ⟨n1, ?_, ?_⟩
      · intro e hm
        obtain ⟨k, hk, hp⟩ := h2 e hm
        exact ⟨k, hk, by rw [hp, if_pos (by rw [hk]; exact List.mem_map_of_mem hm)]⟩
      · intro k hk
        rw [if_neg ((nm _ _).1 hk)]
    · refine (split ⟨he', hn⟩ _).2 ?_
      refine ⟨n2, ?_, ?_⟩
      · intro e hm
        obtain ⟨k, hk, hp⟩ := h3 e hm
        exact ⟨k, hk, by rw [hp, if_pos (by rw [hk]; exact List.mem_map_of_mem (f := fun e : KVLine × Str => e.1.key) hm)]⟩
      · intro k hk
        rw [if_neg ((nm _ _).1 hk)]
    · funext k
      by_cases m1 : S.name k ∈ es.map fun e => e.1.key
      · have m2 := hd _ m1
        simp only [m1, m2, if_true, if_false, Option.or_none]
      · by_cases m2 : S.name k ∈ es'.map fun e => e.1.key
        · simp only [m1, m2, if_true, if_false, Option.none_or]
        · simp only [m1, m2, if_false, Option.none_or]
          exact h4 k ⟨(nm _ _).2 m1, (nm _ _).2 m2⟩
  · rintro ⟨hd, f, g, hf, hg, rfl⟩
    rw [split ⟨he, hn0⟩] at hf
    rw [split ⟨he', hn⟩] at hg
    obtain ⟨f1, f2, f3⟩ := hf
    obtain ⟨g1, g2, g3⟩ := hg
    refine ⟨List.nodup_append.2 ⟨f1, g1, fun x hx y hy e => hd x hx (e ▸ hy)⟩, ⟨?_, ?_⟩, ?_⟩
    · intro e hm
      obtain ⟨k, hk, hp⟩ := f2 e hm
      refine ⟨k, hk, ?_⟩
      have : g k = none := g3 k ((nm _ _).2 (by
        rw [hk]; exact hd _ (List.mem_map_of_mem (f := fun e : KVLine × Str => e.1.key) hm)))
      dsimp only
      rw [hp, this, Option.or_none]
    · intro e hm
      obtain ⟨k, hk, hp⟩ := g2 e hm
      refine ⟨k, hk, ?_⟩
      have : f k = none := f3 k ((nm _ _).2 (by
        rw [hk]
        exact fun hx => hd _ hx (List.mem_map_of_mem (f := fun e : KVLine × Str => e.1.key) hm)))
      dsimp only
      rw [hp, this, Option.none_or]
    · rintro k ⟨h1, h2⟩
      dsimp only
      rw [f3 k h1, g3 k h2]
      rfl

end Osu
