/-
Values read from texts that the comparison of texts does not tell apart.
-/
import Verif.Spec.StrEq
import Verif.Proof.Resave
import Verif.Props.FieldTables
import Verif.Props.HitObjects

namespace Osu
open Parser Ev Trimmer

/-! ### Lists -/

section
variable {α β γ : Type}

theorem Each.of_map {R : α → β → Prop} {f : α → γ} {g : β → γ} {x : List α} {y : List β} (h : x.map f = y.map g)
    (hR : ∀ a ∈ x, ∀ b ∈ y, f a = g b → R a b) : Each R x y := by
  induction x generalizing y with
  | nil =>
    cases y with
    | nil => exact .nil
    | cons => cases h
  | cons a x ih =>
    cases y with
    | nil => cases h
    | cons b y =>
      simp only [List.map_cons, List.cons.injEq] at h
      exact .cons (hR a (by simp) b (by simp) h.1)
        (ih h.2 fun a' ha b' hb => hR a' (List.mem_cons_of_mem _ ha) b' (List.mem_cons_of_mem _ hb))

theorem Each.mono {R S : α → β → Prop} {x : List α} {y : List β} (h : Each R x y) (hRS : ∀ a b, R a b → S a b) : Each S x y := by
  induction h with
  | nil => exact .nil
  | cons h _ ih => exact .cons (hRS _ _ h) ih

theorem Each.map {δ : Type} {R : α → β → Prop} {S : γ → δ → Prop} {f : α → γ} {g : β → δ} {x : List α} {y : List β} (h : Each R x y)
    (hRS : ∀ a b, R a b → S (f a) (g b)) : Each S (x.map f) (y.map g) := by
  induction h with
  | nil => exact .nil
  | cons h _ ih => exact .cons (hRS _ _ h) ih

theorem Each.tail {R : α → β → Prop} {x : List α} {y : List β} (h : Each R x y) : Each R x.tail y.tail := by
  cases h with
  | nil => exact .nil
  | cons _ t => exact t

theorem Each.eq {x y : List α} (h : Each Eq x y) : x = y := by
  induction h with
  | nil => rfl
  | cons h _ ih => rw [h, ih]

theorem EachPerm.of_each {R : α → β → Prop} {x : List α} {y : List β} (h : Each R x y) : EachPerm R x y := ⟨y, .refl _, h⟩

/-- Lists with the same keys up to order: one of them put in the order of the other. -/
theorem perm_keys {f : α → γ} {g : β → γ} {x : List α} {y : List β} (h : (x.map f).Perm (y.map g)) :
    ∃ z : List β, z.Perm y ∧ x.map f = z.map g := by
  induction x generalizing y with
  | nil =>
    have := h.length_eq
    cases y with
    | nil => exact ⟨[], .refl _, rfl⟩
    | cons => simp at this
  | cons a x ih =>
    have hm : f a ∈ y.map g := h.mem_iff.1 (by simp)
    obtain ⟨b, hb, e⟩ := List.mem_map.1 hm
    obtain ⟨y1, y2, rfl⟩ := List.append_of_mem hb
    have h' : (x.map f).Perm ((y1 ++ y2).map g) := by
      have h2 : ((y1 ++ b :: y2).map g).Perm (g b :: (y1 ++ y2).map g) := by
        rw [← List.map_cons]; exact List.perm_middle.map g
      have := h.trans h2
      rw [List.map_cons, e] at this
      exact this.cons_inv
    obtain ⟨z, hz, ez⟩ := ih h'
    exact ⟨b :: z, (hz.cons b).trans List.perm_middle.symm, by rw [List.map_cons, List.map_cons, e, ez]⟩

/-- Texts with the same keys up to order and what they stand for. -/
theorem perm_read {R : Str → α → Prop} {S : α → α → Prop} {as bs : List Str} {x y : List α} (hx : Each R as x) (hy : Each R bs y)
    {f : Str → γ} (hd : ∀ l l' c c', R l c → R l' c' → f l = f l' → S c c') (h : (as.map f).Perm (bs.map f)) : EachPerm S x y := by
  have pair : ∀ {as : List Str} {x : List α}, Each R as x → ∃ p : List (Str × α), p.map Prod.fst = as ∧ p.map Prod.snd = x ∧
      ∀ q ∈ p, R q.1 q.2 := by
    intro as x h
    induction h with
    | nil => exact ⟨[], rfl, rfl, by simp⟩
    | @cons a b as bs h _ ih =>
      obtain ⟨p, rfl, rfl, hp⟩ := ih
      exact ⟨(a, b) :: p, rfl, rfl, by
        intro q hq
        rcases List.mem_cons.1 hq with rfl | hq
        · exact h
        · exact hp q hq⟩
  obtain ⟨p, rfl, rfl, hp⟩ := pair hx
  obtain ⟨q, rfl, rfl, hq⟩ := pair hy
  rw [List.map_map, List.map_map] at h
  obtain ⟨z, hz, e⟩ := perm_keys h
  refine ⟨z.map Prod.snd, hz.map _, ?_⟩
  refine Each.map (R := fun (a b : Str × α) => f a.1 = f b.1 ∧ R a.1 a.2 ∧ R b.1 b.2) (Each.of_map e fun a ha b hb hab =>
    ⟨(show f a.1 = f b.1 from hab), hp a ha, hq b (hz.mem_iff.1 hb)⟩) ?_
  rintro a b ⟨h1, h2, h3⟩
  exact hd _ _ _ _ h2 h3 h1

theorem each_read {R : Str → α → Prop} {S : α → α → Prop} {as bs : List Str} {x y : List α} (hx : Each R as x) (hy : Each R bs y)
    {f : Str → γ} (hd : ∀ l l' c c', R l c → R l' c' → f l = f l' → S c c') (h : as.map f = bs.map f) : Each S x y := by
  induction hx generalizing bs y with
  | nil =>
    cases hy with
    | nil => exact .nil
    | cons => cases h
  | cons h1 _ ih =>
    cases hy with
    | nil => cases h
    | cons h2 t2 =>
      simp only [List.map_cons, List.cons.injEq] at h
      exact .cons (hd _ _ _ _ h1 h2 h.1) (ih t2 h.2)

end

/-! ### Texts -/

theorem TextSame.symm {a b : Str} (h : TextSame a b) : TextSame b a := Eq.symm h

theorem bareText_idem (s : Str) : bareText (bareText s) = bareText s := by
  unfold bareText; rw [List.filter_filter]; simp

theorem bareText_cons {c : Char} (h : isWs c = false) (h' : c ≠ '﻿') (s : Str) : bareText (c :: s) = c :: bareText s := by
  unfold bareText; rw [List.filter_cons_of_pos]; simp [h, h']

theorem bareText_splitOnC {c : Char} (h : isWs c = false) (h' : c ≠ '﻿') (s : Str) :
    splitOnC c (bareText s) = (splitOnC c s).map bareText := by
  induction s with
  | nil => rfl
  | cons d s ih =>
    by_cases hd : d = c
    · subst hd
      rw [bareText_cons h h', splitOnC, splitOnC, if_pos rfl, if_pos rfl, ih]; rfl
    · cases hs : splitOnC c s with
      | nil => exact absurd hs (splitOnC_ne_nil c s)
      | cons l ls =>
        rw [hs] at ih
        have e1 : splitOnC c (d :: s) = (d :: l) :: ls := by rw [splitOnC, if_neg hd, hs]
        rw [e1]
        by_cases hb : isWs d || d == '﻿'
        · have : ∀ s, bareText (d :: s) = bareText s := fun s => by
            unfold bareText; rw [List.filter_cons_of_neg]; simp only [hb]; decide
          rw [this, ih]; simp [this]
        · have : ∀ s, bareText (d :: s) = d :: bareText s := fun s => by
            unfold bareText; rw [List.filter_cons_of_pos]; simp only [hb]; decide
          rw [this, splitOnC, if_neg hd, ih]; simp [this]

theorem TextSame.pieces {c : Char} (h : isWs c = false) (h' : c ≠ '﻿') {a b : Str} (e : TextSame a b) :
    (splitOnC c a).map bareText = (splitOnC c b).map bareText := by
  rw [← bareText_splitOnC h h', ← bareText_splitOnC h h', e]

theorem TextSame.num {a b : Str} (ha : AllC isNumChar a) (hb : AllC isNumChar b) (h : TextSame a b) : a = b := by
  unfold TextSame at h
  rwa [bareText_num ha, bareText_num hb] at h

theorem bareText_join {c : Char} (h : isWs c = false) (h' : c ≠ '﻿') (ps : List Str) : bareText (join [c] ps) = join [c] (ps.map bareText) := by
  induction ps with
  | nil => rfl
  | cons p ps ih =>
    cases ps with
    | nil => rfl
    | cons q qs =>
      rw [join_cons_cons, bareText_append, bareText_append, ih]
      simp only [List.map_cons, join_cons_cons]
      congr 2
      exact bareText_cons h h' []

theorem TextSame.join {c : Char} (h : isWs c = false) (h' : c ≠ '﻿') {ps qs : List Str} (e : ps.map bareText = qs.map bareText) :
    TextSame (join [c] ps) (join [c] qs) := by
  unfold TextSame
  rw [bareText_join h h', bareText_join h h', e]

theorem squeeze_bare {l l' : Str} (h : squeeze (cleanLine l) = squeeze (cleanLine l')) : TextSame l l' := by
  have e : ∀ l, bareText (squeeze (cleanLine l)) = bareText l := by
    intro l
    have hc : bareText (cleanLine l) = bareText l := by
      rw [← bareText_trim l]
      unfold cleanLine bareText
      rw [List.filter_filter]
      apply List.filter_congr
      intro c _
      cases isWs c <;> simp
    unfold squeeze
    split
    · rw [← hc]
      unfold bareText
      rw [List.filter_filter]
      apply List.filter_congr
      intro c _
      cases isWs c <;> simp
    · exact hc
  unfold TextSame
  rw [← e, h, e]

/-! ### Fields -/

theorem numeral_num {s : Str} {n : Int} (h : IsNumeral s n) : AllC isNumChar s := by
  obtain ⟨ds, -, hd, h⟩ := h
  have hd : AllC isNumChar ds := hd.mono fun c hc => by
    unfold isNumChar; unfold isDig at hc; simp [hc]
  rcases h with ⟨rfl, -⟩ | ⟨rfl, -⟩ | ⟨rfl, -⟩
  · exact hd
  · exact .cons (by decide) hd
  · exact .cons (by decide) hd

theorem uNumeral_num {s : Str} {n : Nat} (h : IsUNumeral s n) : AllC isNumChar s := by
  obtain ⟨ds, h0, hd, h⟩ := h
  refine numeral_num (n := n) ⟨ds, h0, hd, ?_⟩
  rcases h with ⟨h1, h2⟩ | ⟨h1, h2⟩
  · exact .inl ⟨h1, by rw [h2]⟩
  · exact .inr (.inl ⟨h1, by rw [h2]⟩)

theorem uNumeral_eq {s : Str} {n m : Nat} (h : IsUNumeral s n) (h' : IsUNumeral s m) : n = m := by
  have h1 := (parseUnsigned_ok_iff (max n m) s n).2 ⟨h, by omega⟩
  have h2 := (parseUnsigned_ok_iff (max n m) s m).2 ⟨h', by omega⟩
  rw [h1] at h2; cases h2; rfl

theorem numeral_eq {s : Str} {n m : Int32} (h : IsNumeral s n.toInt) (h' : IsNumeral s m.toInt) : n = m := by
  have h1 := (C01_i32_accepts s n).2 h
  have h2 := (C01_i32_accepts s m).2 h'
  rw [h1] at h2; cases h2; rfl

theorem bareText_spaces (l : List Str) : bareText (join [' '] l) = bareText l.flatten := by
  induction l with
  | nil => rfl
  | cons a l ih =>
    cases l with
    | nil => simp [join]
    | cons b l =>
      rw [join_cons_cons, bareText_append, bareText_append, ih]
      show _ = bareText (a ++ (b :: l).flatten)
      rw [bareText_append]
      have : bareText [' '] = [] := rfl
      rw [this, List.append_nil]

theorem spelled_bare {ps : List Str} {l : List Int32} (h : Spelled IsNumeral ps l) : ps.map bareText = ps := by
  induction h with
  | nil => rfl
  | cons h _ ih => rw [List.map_cons, bareText_num (numeral_num h), ih]

section
variable {D : Type} [DecLib D]

theorem ints_bare {v : Nat} {s : Str} {o : Option (FVal D)} (h : FMeans v s o .integers) :
    bareText s = s ∧ ∃ l, o = some (.ints l) ∧ parseBookmarks s = .ok l := by
  have hb : ∃ l, o = some (.ints l) := by
    rcases h with ⟨-, h⟩ | ⟨_, l, -, -, -, h⟩
    · exact ⟨_, h⟩
    · exact ⟨_, h⟩
  refine ⟨?_, ?_⟩
  · rcases h with ⟨rfl, -⟩ | ⟨ps, l, rfl, -, h, -⟩
    · rfl
    · rw [bareText_join (by decide) (by decide), spelled_bare h]
  · obtain ⟨l, rfl⟩ := hb
    refine ⟨l, rfl, ?_⟩
    obtain ⟨l', h1, h2⟩ := res_bind_ok.1 ((means_ints v s (some l)).2 h)
    cases h2
    exact h1

/-- Texts that differ only in blanks mean values that are the same up to blanks. -/
theorem fmeans_same {v : Nat} {k : FKind} {a b : Str} {o o' : Option (FVal D)} (h : FMeans v a o k) (h' : FMeans v b o' k)
    (e : TextSame a b) : OptSame FSame o o' := by
  cases k with
  | text => cases h; cases h'; exact .text e
  | integer =>
    obtain ⟨n, h1, rfl⟩ := h
    obtain ⟨m, h2, rfl⟩ := h'
    have := e.num (numeral_num h1) (numeral_num h2)
    subst this
    rw [numeral_eq h1 h2]; exact .same _
  | flag =>
    have key : ∀ {b c : Bool} {n m : Int32} {s : Str}, IsNumeral s n.toInt → IsNumeral s m.toInt → (n = m → b = c) →
        OptSame FSame (some (FVal.flag b : FVal D)) (some (.flag c)) := by
      intro b c n m s h1 h2 hbc
      rw [hbc (numeral_eq h1 h2)]; exact .same _
    rcases h with ⟨h1, rfl⟩ | ⟨h1, rfl⟩ <;> rcases h' with ⟨h2, rfl⟩ | ⟨h2, rfl⟩ <;>
      (have := e.num (numeral_num h1) (numeral_num h2); subst this)
    · exact .same _
    · exact key (n := 0) (m := 1) h1 h2 (fun h => absurd h (by decide))
    · exact key (n := 1) (m := 0) h1 h2 (fun h => absurd h (by decide))
    · exact .same _
  | number =>
    have key : ∀ {s : Str} {o : Option (FVal D)}, FMeans v s o .number → o = some (.number (Decimal.ofStr s)) := by
      rintro s o (⟨d, h1, rfl⟩ | ⟨h1, rfl⟩) <;> simp [Decimal.ofStr, h1]
    rw [key h, key h']
    exact .number ⟨a, b, e, rfl, rfl⟩
  | integers =>
    obtain ⟨h1, l, rfl, h2⟩ := ints_bare h
    obtain ⟨g1, m, rfl, g2⟩ := ints_bare h'
    have : a = b := by rw [← h1, ← g1]; exact e
    subst this
    rw [h2] at g2; cases g2
    exact .same _
  | words =>
    obtain ⟨l, -, -, rfl, rfl⟩ := h
    obtain ⟨m, -, -, rfl, rfl⟩ := h'
    refine .words ?_
    unfold TextSame at e ⊢
    rwa [bareText_spaces, bareText_spaces] at e
  | countdown =>
    rcases h with ⟨h1, rfl⟩ | ⟨h1, c, h2, rfl⟩ <;> rcases h' with ⟨g1, rfl⟩ | ⟨g1, d, g2, rfl⟩
    · trivial
    · exact absurd h1 g1
    · exact absurd g1 h1
    · have := e.num (uNumeral_num h2) (uNumeral_num g2)
      subst this
      have := uNumeral_eq h2 g2
      have : c = d := by cases c <;> cases d <;> first | rfl | exact absurd this (by decide)
      subst this
      exact .same _
  | sampleSet =>
    rcases h with ⟨h1, rfl⟩ | ⟨h1, c, rfl, rfl⟩ <;> rcases h' with ⟨g1, rfl⟩ | ⟨g1, d, rfl, rfl⟩
    · trivial
    · exact absurd h1 g1
    · exact absurd g1 h1
    · have : c = d := by cases c <;> cases d <;> first | rfl | exact absurd e (by unfold TextSame; decide)
      subst this
      exact .same _
  | mode =>
    obtain ⟨c, h1, h2⟩ := h
    obtain ⟨d, g1, g2⟩ := h'
    have := e.num (uNumeral_num h1) (uNumeral_num g1)
    subst this
    have := uNumeral_eq h1 g1
    have : c = d := by cases c <;> cases d <;> first | rfl | exact absurd this (by decide)
    subst this
    rcases h2 with ⟨h2, rfl⟩ | ⟨h2, rfl⟩ <;> rcases g2 with ⟨g2, rfl⟩ | ⟨g2, rfl⟩
    · exact .same _
    · exact absurd h2 g2
    · exact absurd g2 h2
    · trivial
  | overlay =>
    rcases h with ⟨h1, rfl⟩ | ⟨h1, c, rfl, rfl⟩ <;> rcases h' with ⟨g1, rfl⟩ | ⟨g1, d, rfl, rfl⟩
    · trivial
    · exact absurd h1 g1
    · exact absurd g1 h1
    · have : c = d := by cases c <;> cases d <;> first | rfl | exact absurd e (by unfold TextSame; decide)
      subst this
      exact .same _

/-- A table of fields whose names have no blanks and colons. -/
def PlainTable (T : List FField) : Prop := ∀ f ∈ T, bareText f.name = f.name ∧ ':' ∉ f.name

theorem entries_ws {s : Str} {es : List (KVLine × Str)} {r : Str} (h : KVEntries s es r) : ∀ e ∈ es, AllC isSpace e.1.ws := by
  induction h with
  | nil => intro e he; cases he
  | cons hk hw hv hh hg hb hs he h ih =>
    intro e he
    rcases List.mem_cons.1 he with rfl | he
    · exact hw
    · exact ih e he

theorem views_same {v : Nat} {es es' : List (KVLine × Str)} {x y : FView D} {T : List FField} (hT : PlainTable T)
    (hx : x.map Prod.fst = T) (hy : y.map Prod.fst = T)
    (h : FReads v es x) (h' : FReads v es' y) (hw : ∀ e ∈ es, AllC isSpace e.1.ws) (hw' : ∀ e ∈ es', AllC isSpace e.1.ws)
    (hp : (es.map fun e => bareText e.1.text).Perm (es'.map fun e => bareText e.1.text)) : ViewSame x y := by
  obtain ⟨hn, hk, hv⟩ := h
  obtain ⟨hn', hk', hv'⟩ := h'
  have name : ∀ {z : FView D}, z.map Prod.fst = T → ∀ {k : Str}, (∃ p ∈ z, p.1.name = k) → bareText k = k ∧ ':' ∉ k := by
    rintro z hz k ⟨p, hp, rfl⟩
    exact hT p.1 (by rw [← hz]; exact List.mem_map_of_mem hp)
  have find : ∀ {es es' : List (KVLine × Str)}, (∀ e ∈ es, AllC isSpace e.1.ws) → (∀ e ∈ es', AllC isSpace e.1.ws) →
      (∀ e ∈ es, bareText e.1.key = e.1.key ∧ ':' ∉ e.1.key) → (∀ e ∈ es', bareText e.1.key = e.1.key ∧ ':' ∉ e.1.key) →
      (es.map fun e => bareText e.1.text).Perm (es'.map fun e => bareText e.1.text) →
      ∀ e ∈ es, ∃ e' ∈ es', e'.1.key = e.1.key ∧ TextSame e.1.value e'.1.value := by
    intro es es' hw hw' hk hk' hp e he
    obtain ⟨e', he', heq⟩ := List.mem_map.1 (hp.mem_iff.1 (List.mem_map_of_mem (f := fun e => bareText e.1.text) he))
    rw [KVLine.bare (hw e he), KVLine.bare (hw' e' he'), (hk e he).1, (hk' e' he').1] at heq
    obtain ⟨h1, h2⟩ := sep_split (hk' e' he').2 (hk e he).2 heq
    exact ⟨e', he', h1, h2.symm⟩
  have kx := fun e he => name hx (hk e he)
  have ky := fun e he => name hy (hk' e he)
  have f1 := find hw hw' kx ky hp
  have f2 := find hw' hw ky kx hp.symm
  refine Each.of_map (f := Prod.fst) (g := Prod.fst) (hx.trans hy.symm) ?_
  intro p hpx q hqy hpq
  refine ⟨by rw [hpq], ?_⟩
  rcases hv p hpx with ⟨e, he, hek, hem⟩ | ⟨he, hnone⟩ <;> rcases hv' q hqy with ⟨e', he', hek', hem'⟩ | ⟨he', hnone'⟩
  · obtain ⟨e'', he'', g1, g2⟩ := f1 e he
    have : e'' = e' := nodup_map_eq hn' he'' he' (by rw [g1, hek, hek', hpq])
    subst this
    rw [← hpq] at hem'
    exact fmeans_same hem hem' g2
  · obtain ⟨e'', he'', g1, -⟩ := f1 e he
    exact absurd (by rw [g1, hek, hpq]) (he' e'' he'')
  · obtain ⟨e'', he'', g1, -⟩ := f2 e' he'
    exact absurd (by rw [g1, hek', hpq]) (he e'' he'')
  · rw [hnone, hnone']; trivial

end

theorem kv_perm {s t : Str} {es es' : List (KVLine × Str)} {r r' : Str} (h : KVSplits s es r) (h' : KVSplits t es' r')
    (hs : CrLf s) (ht : CrLf t) (hr : Blank r) (hr' : Blank r') (e : SameLines (cleanLines s) (cleanLines t)) :
    (es.map fun e => bareText e.1.text).Perm (es'.map fun e => bareText e.1.text) := by
  rw [kv_cleanLines h.1 hs (trim_eq_nil.2 hr), kv_cleanLines h'.1 ht (trim_eq_nil.2 hr'), sameLines_colon, List.map_map,
    List.map_map] at e
  · have : ∀ es : List (KVLine × Str), es.map (squeeze ∘ fun e => cleanLine e.1.text) = es.map fun e => bareText e.1.text :=
      fun es => List.map_congr_left fun e _ => squeeze_clean e.1.colon
    rwa [this, this] at e
  · intro l hl
    obtain ⟨e, -, rfl⟩ := List.mem_map.1 hl
    exact colon_clean e.1.colon

end Osu
