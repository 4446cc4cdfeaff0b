/-
Timing points, colours and hit objects read from texts that the comparison of texts does not tell apart.
-/
import Verif.Proof.StrEq
import Verif.Props.TimingPoints

namespace Osu
open Parser Ev Trimmer HO

/-! ### Lines -/

theorem cleaned_map {ls : List Str} (h : ∀ l ∈ ls, cleanLine l ≠ []) : cleaned ls = ls.map cleanLine := by
  unfold cleaned
  rw [List.filter_eq_self]
  intro l hl
  obtain ⟨l', hl', rfl⟩ := List.mem_map.1 hl
  have := h l' hl'
  cases hc : cleanLine l' with
  | nil => exact absurd hc this
  | cons => rfl

theorem cleanLine_mem {c : Char} (h : isWs c = false) (h' : c ≠ '﻿') {l : Str} (hl : c ∈ l) : cleanLine l ≠ [] := by
  have h1 : c ∈ l.filter fun c => !isWs c := List.mem_filter.2 ⟨hl, by simp [h]⟩
  rw [← filter_trim] at h1
  have : c ∈ cleanLine l := List.mem_filter.2 ⟨(List.mem_filter.1 h1).1, by simp [h']⟩
  intro e
  rw [e] at this; cases this

theorem parsed_each {E α : Type} {f : Str → Res E α} {s : Str} {x : List α} (h : parseLines f s = .ok x) :
    Each (fun l c => f l = .ok c) ((lines s).filter nonBlank) x := by
  rw [parseLines_ok_iff] at h
  exact Each.of_map h fun a _ b _ e => e

theorem Each.left {α β : Type} {R : α → β → Prop} {x : List α} {y : List β} (h : Each R x y) : ∀ a ∈ x, ∃ b ∈ y, R a b := by
  induction h with
  | nil => intro a ha; cases ha
  | @cons a b as bs h _ ih =>
    intro c hc
    rcases List.mem_cons.1 hc with rfl | hc
    · exact ⟨b, by simp, h⟩
    · obtain ⟨d, hd, hr⟩ := ih c hc
      exact ⟨d, List.mem_cons_of_mem _ hd, hr⟩

/-- The lines of two section bodies that are not told apart, and what they stand for: in the same order, unless every line has a
colon. -/
theorem lines_same {α : Type} {R : Str → α → Prop} {S : α → α → Prop} {s t : Str} {x y : List α}
    (hx : Each R ((lines s).filter nonBlank) x) (hy : Each R ((lines t).filter nonBlank) y)
    (hne : ∀ l c, R l c → cleanLine l ≠ []) (hd : ∀ l l' c c', R l c → R l' c' → TextSame l l' → S c c')
    (h : SameLines (cleanLines s) (cleanLines t)) :
    EachPerm S x y ∧ ((∃ l ∈ cleanLines s, ':' ∉ l) → Each S x y) := by
  have clean : ∀ {s : Str} {x : List α}, Each R ((lines s).filter nonBlank) x →
      cleanLines s = ((lines s).filter nonBlank).map cleanLine := by
    intro s x hx
    rw [cleanLines_filter, cleaned_map]
    intro l hl
    obtain ⟨c, -, hc⟩ := hx.left l hl
    exact hne l c hc
  have hd' : ∀ l l' c c', R l c → R l' c' → (squeeze ∘ cleanLine) l = (squeeze ∘ cleanLine) l' → S c c' :=
    fun l l' c c' h1 h2 e => hd l l' c c' h1 h2 (squeeze_bare e)
  have hp : ((∃ l ∈ cleanLines s, ':' ∉ l) → (cleanLines s).map squeeze = (cleanLines t).map squeeze) := by
    rintro ⟨l, hl, hc⟩
    rcases h with h | ⟨h, -⟩
    · exact h
    · exact absurd (h l hl) hc
  have hperm : ((cleanLines s).map squeeze).Perm ((cleanLines t).map squeeze) := by
    rcases h with h | ⟨-, h⟩
    · rw [h]
    · exact h
  rw [clean hx, clean hy, List.map_map, List.map_map] at hp hperm
  refine ⟨perm_read hx hy hd' hperm, fun hc => ?_⟩
  rw [clean hx] at hc
  exact each_read hx hy hd' (hp hc)

theorem num_same {ε α : Type} {f : Str → Res ε α} (hf : ∀ s a, f s = .ok a → AllC isNumChar s) {a b : Str} {x y : α}
    (h : f a = .ok x) (h' : f b = .ok y) (e : TextSame a b) : x = y := by
  have := e.num (hf a x h) (hf b y h')
  subst this
  rw [h] at h'; cases h'; rfl

/-! ### Timing points -/

section
variable {D : Type} [DecLib D]

theorem tpHead_same {v : Nat} {p b m ss si p' b' m' ss' si' : Str} {t u : TimingPoint D} (h : TPHead v p b m ss si t)
    (h' : TPHead v p' b' m' ss' si' u) (e1 : TextSame p p') (e2 : TextSame b b') (e3 : TextSame m m') (e4 : TextSame ss ss')
    (e5 : TextSame si si') : TimeSame v t.time u.time ∧ NumSame t.beatLength u.beatLength ∧ t.meter = u.meter ∧
      t.sampleSet = u.sampleSet ∧ t.sampleIndex = u.sampleIndex :=
  ⟨⟨p, p', e1, h.time, h'.time⟩, ⟨b, b', e2, h.beatLength, h'.beatLength⟩,
    num_same (fun _ _ h => (parseI32_chars h).2) h.meter h'.meter e3,
    num_same (fun _ _ => TP.SampleSet.parse_chars) h.sampleSet h'.sampleSet e4,
    num_same (fun _ _ => TP.SampleIndex.parse_chars) h.sampleIndex h'.sampleIndex e5⟩

theorem point_mk {v : Nat} {t u : TimingPoint D} (h : TimeSame v t.time u.time ∧ NumSame t.beatLength u.beatLength ∧
    t.meter = u.meter ∧ t.sampleSet = u.sampleSet ∧ t.sampleIndex = u.sampleIndex) (h1 : t.volume = u.volume)
    (h2 : t.uninherited = u.uninherited) (h3 : t.effects = u.effects) : PointSame v t u := by
  obtain ⟨a, b, c, d, e⟩ := h
  refine ⟨a, b, ?_⟩
  cases u; cases t
  simp only at c d e h1 h2 h3 ⊢
  subst c d e h1 h2 h3
  rfl

theorem tp_same {v : Nat} {ps qs : List Str} {t u : TimingPoint D} (h : TPReads v ps t) (h' : TPReads v qs u)
    (e : ps.map bareText = qs.map bareText) : PointSame v t u := by
  have vol := fun {a b : Str} {x y} (h : TP.Volume.parse a = .ok x) (h' : TP.Volume.parse b = .ok y) e =>
    num_same (fun _ _ => TP.Volume.parse_chars) h h' e
  have flag := fun {a b : Str} {x y} (h : parseZeroOneBool a = .ok x) (h' : parseZeroOneBool b = .ok y) e =>
    num_same (fun _ _ => parseZeroOneBool_chars) h h' e
  have eff := fun {a b : Str} {x y} (h : TP.Effects.parse a = .ok x) (h' : TP.Effects.parse b = .ok y) e =>
    num_same (fun _ _ => TP.Effects.parse_chars) h h' e
  cases h with
  | @old p q rs time hv ht =>
    cases h' with
    | @old p' q' rs' time' hv' ht' =>
      simp only [List.map_cons, List.cons.injEq] at e
      refine ⟨⟨p, p', e.1, ht, ht'⟩, ⟨_, _, TextSame.join (c := ',') (by decide) (by decide) ?_, rfl, rfl⟩, rfl⟩
      simp only [List.map_cons, e.2.1, e.2.2]
    | _ => omega
  | four hv h hvol hu he =>
    cases h' with
    | old => omega
    | four hv' h' hvol' hu' he' =>
      simp only [List.map_cons, List.cons.injEq] at e
      obtain ⟨e1, e2, e3, e4, e5, -⟩ := e
      exact point_mk (tpHead_same h h' e1 e2 e3 e4 e5) (by rw [hvol, hvol']) (by rw [hu, hu']) (by rw [he, he'])
    | _ => simp at e
  | six hv h hvol hu he =>
    cases h' with
    | old => omega
    | six hv' h' hvol' hu' he' =>
      simp only [List.map_cons, List.cons.injEq] at e
      obtain ⟨e1, e2, e3, e4, e5, e6, -⟩ := e
      exact point_mk (tpHead_same h h' e1 e2 e3 e4 e5) (vol hvol hvol' e6) (by rw [hu, hu']) (by rw [he, he'])
    | _ => simp at e
  | seven hv h hvol hu hux he =>
    cases h' with
    | old => omega
    | seven hv' h' hvol' hu' hux' he' =>
      simp only [List.map_cons, List.cons.injEq] at e
      obtain ⟨e1, e2, e3, e4, e5, e6, e7, -⟩ := e
      exact point_mk (tpHead_same h h' e1 e2 e3 e4 e5) (vol hvol hvol' e6) (by rw [hux, hux', flag hu hu' e7]) (by rw [he, he'])
    | _ => simp at e
  | eight hv h hvol hu hux he hex =>
    cases h' with
    | old => omega
    | eight hv' h' hvol' hu' hux' he' hex' =>
      simp only [List.map_cons, List.cons.injEq] at e
      obtain ⟨e1, e2, e3, e4, e5, e6, e7, e8, -⟩ := e
      exact point_mk (tpHead_same h h' e1 e2 e3 e4 e5) (vol hvol hvol' e6) (by rw [hux, hux', flag hu hu' e7])
        (by rw [hex, hex', eff he he' e8])
    | _ => simp at e

theorem tpReads_comma {v : Nat} {ps : List Str} {t : TimingPoint D} (h : TPReads v ps t) : 2 ≤ ps.length := by
  cases h <;> simp

theorem comma_of_pieces {l : Str} (h : 2 ≤ (splitOnC ',' l).length) : ',' ∈ l := by
  refine Classical.byContradiction fun hn => ?_
  have : AllC (fun d => !(d == ',')) l := fun c hc => by
    have : c ≠ ',' := by rintro rfl; exact hn hc
    simp [this]
  rw [splitOnC_single this] at h
  simp at h

/-! ### Hit objects -/

theorem dropBlankLast_get {ps : List Str} {i : Nat} :
    (∃ p, (dropBlankLast ps)[i]? = some p ∧ ps[i]? = some p) ∨ ((dropBlankLast ps)[i]? = none ∧ ∀ p, ps[i]? = some p → blanks p = true) := by
  induction ps generalizing i with
  | nil => exact .inr ⟨rfl, by simp⟩
  | cons p ps ih =>
    cases ps with
    | nil =>
      unfold dropBlankLast
      cases i with
      | zero =>
        by_cases hb : blanks p = true
        · rw [if_pos hb]; exact .inr ⟨rfl, by simpa using hb⟩
        · rw [if_neg hb]; exact .inl ⟨p, rfl, rfl⟩
      | succ i =>
        refine .inr ⟨?_, by simp⟩
        split <;> simp
    | cons q qs =>
      have e : dropBlankLast (p :: q :: qs) = p :: dropBlankLast (q :: qs) := rfl
      rw [e]
      cases i with
      | zero => exact .inl ⟨p, rfl, rfl⟩
      | succ i => simpa using ih

theorem field_same {ε α : Type} {f : Str → Res ε α} (hf : ∀ s a, f s = .ok a → s ≠ [] ∧ AllC isNumChar s) {d : α} {ps qs : List Str} {i : Nat}
    {x y : α} (h : fieldIs f d (dropBlankLast ps)[i]? x) (h' : fieldIs f d (dropBlankLast qs)[i]? y)
    (e : ps.map bareText = qs.map bareText) : x = y := by
  have ei : (ps[i]?).map bareText = (qs[i]?).map bareText := by rw [← List.getElem?_map, ← List.getElem?_map, e]
  have key : ∀ {ps qs : List Str} {x : α} {p : Str}, (ps[i]?).map bareText = (qs[i]?).map bareText → ps[i]? = some p → f p = .ok x →
      (∀ q, qs[i]? = some q → blanks q = true) → False := by
    intro ps qs x p ei hp hx hq
    rw [hp] at ei
    cases hqi : qs[i]? with
    | none => rw [hqi] at ei; cases ei
    | some q =>
      rw [hqi] at ei
      have ei := Option.some.inj ei
      rw [blanks_bare (hq q hqi), bareText_num (hf p x hx).2] at ei
      exact (hf p x hx).1 ei
  rcases dropBlankLast_get (ps := ps) (i := i) with ⟨p, h1, h2⟩ | ⟨h1, h2⟩ <;>
    rcases dropBlankLast_get (ps := qs) (i := i) with ⟨q, g1, g2⟩ | ⟨g1, g2⟩ <;> rw [h1] at h <;> rw [g1] at h'
  · rw [h2, g2] at ei
    exact num_same (fun s a h => (hf s a h).2) h h' (Option.some.inj ei)
  · exact (key ei h2 h g2).elim
  · exact (key ei.symm g2 h' h2).elim
  · have h : x = d := h
    have h' : y = d := h'
    rw [h, h']

theorem sample_same {ps qs : List Str} {x y : HitSample} (h : SampleReads ps x) (h' : SampleReads qs y)
    (e : ps.map bareText = qs.map bareText) : SampleSame x y := by
  have set : ∀ s a, SampleSet.parse s = .ok a → s ≠ [] ∧ AllC isNumChar s := by
    intro s a h
    obtain ⟨n, hn, -⟩ := SampleSet.parse_iff.1 h
    exact parseUsize_chars hn
  have idx : ∀ s a, SampleIndex.parse s = .ok a → s ≠ [] ∧ AllC isNumChar s := by
    intro s a h
    unfold SampleIndex.parse at h
    obtain ⟨n, hn, -⟩ := Res.bind_eq_ok.1 h
    exact parseUsize_chars hn
  have vol : ∀ s a, HO.Volume.parse s = .ok a → s ≠ [] ∧ AllC isNumChar s := by
    intro s a h
    refine ⟨?_, HO.Volume.parse_chars h⟩
    rintro rfl
    cases h
  have e1 := field_same set h.normalSet h'.normalSet e
  have e2 := field_same set h.additionSet h'.additionSet e
  have e3 := field_same idx h.index h'.index e
  have e4 := field_same vol h.volume h'.volume e
  refine ⟨?_, ?_⟩
  · rw [h.filename, h'.filename]
    have ei : (ps[4]?).map bareText = (qs[4]?).map bareText := by rw [← List.getElem?_map, ← List.getElem?_map, e]
    have one : ∀ ps : List Str, bareText (((dropBlankLast ps)[4]?).getD []) = ((ps[4]?).map bareText).getD [] := by
      intro ps
      rcases dropBlankLast_get (ps := ps) (i := 4) with ⟨p, h1, h2⟩ | ⟨h1, h2⟩
      · rw [h1, h2]; rfl
      · rw [h1]
        cases hp : ps[4]? with
        | none => rfl
        | some p => rw [Option.map_some, Option.getD_some, blanks_bare (h2 p hp)]; rfl
    unfold TextSame
    rw [one, one, ei]
  · cases x; cases y
    simp only at e1 e2 e3 e4 ⊢
    subst e1 e2 e3 e4
    rfl

theorem sampleTail_same {ps qs : List Str} {o o' : Option HitSample} (h : SampleTail ps o) (h' : SampleTail qs o')
    (e : ps.map bareText = qs.map bareText) : OptSame SampleSame o o' := by
  cases ps with
  | nil =>
    cases qs with
    | nil => cases h; cases h'; trivial
    | cons => cases e
  | cons p ps =>
    cases qs with
    | nil => cases e
    | cons q qs =>
      obtain ⟨x, h1, rfl⟩ := h
      obtain ⟨y, h2, rfl⟩ := h'
      exact sample_same h1 h2 (TextSame.pieces (by decide) (by decide) (TextSame.join (by decide) (by decide) e))

theorem map_ok_each {ε α : Type} {f : Str → Res ε α} {ps : List Str} {l : List α} (h : ps.map f = l.map .ok) :
    Each (fun p a => f p = .ok a) ps l := Each.of_map h fun _ _ _ _ e => e

/-- Items whose texts have no blanks. -/
theorem pipe_same {ε α : Type} {f : Str → Res ε α} (hf : ∀ s a, f s = .ok a → s ≠ [] ∧ bareText s = s) {p q : Str} {l m : List α}
    (h : PipeReadsLast f p l) (h' : PipeReadsLast f q m) (e : TextSame p q) : l = m := by
  have key : ∀ {p : Str} {l : List α}, PipeReadsLast f p l → (bareText p = [] ∧ l = []) ∨
      (bareText p ≠ [] ∧ (splitOnC '|' p).map f = l.map .ok) := by
    rintro p l ((⟨rfl, rfl⟩ | ⟨-, -, h⟩) | ⟨hb, rfl⟩)
    · exact .inl ⟨rfl, rfl⟩
    · refine .inr ⟨?_, h⟩
      intro hb
      have hs := bareText_splitOnC (c := '|') (by decide) (by decide) p
      rw [hb] at hs
      cases hp : splitOnC '|' p with
      | nil => exact absurd hp (splitOnC_ne_nil _ _)
      | cons a as =>
        rw [hp] at hs h
        cases l with
        | nil => cases h
        | cons x l =>
          simp only [List.map_cons, List.cons.injEq] at h
          have hs : [[]] = bareText a :: as.map bareText := hs
          simp only [List.cons.injEq] at hs
          obtain ⟨h1, h2⟩ := hf a x h.1
          rw [h2] at hs
          exact h1 hs.1.symm
    · exact .inl ⟨blanks_bare hb, rfl⟩
  have e' : bareText p = bareText q := e
  rcases key h with ⟨h1, rfl⟩ | ⟨h1, h2⟩ <;> rcases key h' with ⟨g1, rfl⟩ | ⟨g1, g2⟩
  · rfl
  · rw [e'] at h1; exact absurd h1 g1
  · rw [← e'] at g1; exact absurd g1 h1
  · refine Each.eq (each_read (map_ok_each h2) (map_ok_each g2) (f := bareText) ?_ (e.pieces (by decide) (by decide)))
    intro a b x y hx hy hab
    rw [(hf a x hx).2, (hf b y hy).2] at hab
    subst hab
    rw [hx] at hy; cases hy; rfl

theorem hitSound_bare (s : Str) (a : HitSound) (h : HitSound.parse s = .ok a) : s ≠ [] ∧ bareText s = s := by
  refine ⟨?_, bareText_num (HitSound.parse_chars h)⟩
  rintro rfl; cases h

theorem edgeSet_bare (s : Str) (a : EdgeSet) (h : EdgeSet.parse s = .ok a) : s ≠ [] ∧ bareText s = s := by
  obtain ⟨x, y, rfl, h1, h2⟩ := EdgeSet.parse_iff.1 h
  refine ⟨by simp, ?_⟩
  rw [bareText_append, bareText_colon, bareText_num (SampleSet.parse_chars h1), bareText_num (SampleSet.parse_chars h2)]

theorem edges_same {ps qs : List Str} {ss ss' : List HitSound} {b b' c c' : Bool} {es es' : List EdgeSet} {o o' : Option HitSample}
    (h : EdgeReads ps ss b es c o) (h' : EdgeReads qs ss' b' es' c' o') (e : ps.map bareText = qs.map bareText) :
    ss = ss' ∧ b = b' ∧ es = es' ∧ c = c' ∧ OptSame SampleSame o o' := by
  cases h with
  | none =>
    cases h' with
    | none => exact ⟨rfl, rfl, rfl, rfl, trivial⟩
    | _ => simp at e
  | sounds h =>
    cases h' with
    | sounds h' =>
      simp only [List.map_cons, List.cons.injEq] at e
      exact ⟨pipe_same hitSound_bare h h' e.1, rfl, rfl, rfl, trivial⟩
    | _ => simp at e
  | sets h1 h2 =>
    cases h' with
    | sets g1 g2 =>
      simp only [List.map_cons, List.cons.injEq] at e
      exact ⟨pipe_same hitSound_bare (.inl h1) (.inl g1) e.1, rfl, pipe_same edgeSet_bare h2 g2 e.2.1, rfl, trivial⟩
    | _ => simp at e
  | sample h1 h2 h3 =>
    cases h' with
    | sample g1 g2 g3 =>
      simp only [List.map_cons, List.cons.injEq] at e
      exact ⟨pipe_same hitSound_bare (.inl h1) (.inl g1) e.1, rfl, pipe_same edgeSet_bare (.inl h2) (.inl g2) e.2.1, rfl,
        sampleTail_same h3 g3 (by simp only [List.map_cons, e.2.2.1, e.2.2.2])⟩
    | _ => simp at e

theorem noC_colon {x : Str} (h : NoC ':' x) : ':' ∉ x := fun hm => by have := h _ hm; simp at this

theorem bareText_mem {c : Char} {s : Str} (h : c ∉ s) : c ∉ bareText s := fun hm => h (List.mem_filter.1 hm).1

theorem point_same {p q : Str} {x y : CurvePoint D} (h : CurvePoint.parse p = .ok x) (h' : CurvePoint.parse q = .ok y) (e : TextSame p q) :
    PosSame x.pos y.pos := by
  obtain ⟨a, b, rfl, h1, h2, h3⟩ := CurvePoint.parse_iff.1 h
  obtain ⟨a', b', rfl, g1, g2, g3⟩ := CurvePoint.parse_iff.1 h'
  unfold TextSame at e
  rw [bareText_append, bareText_append, bareText_colon, bareText_colon] at e
  obtain ⟨e1, e2⟩ := sep_split (bareText_mem (noC_colon h1)) (bareText_mem (noC_colon g1)) e
  exact ⟨⟨a, a', e1, h2, g2⟩, ⟨b, b', e2, h3, g3⟩⟩

theorem lacks_not {c : Char} {s : Str} (h : lacks c s = true) : c ∉ s := fun hm => by
  have := List.all_eq_true.1 h c hm; simp at this

theorem curveType_bare {s : Str} {c : CurveType} (h : CurveType.parse s = .ok c) : bareText s = s ∧ '|' ∉ s := by
  rw [HitObject.curveType_chars h]; cases c <;> decide

theorem points_same {p q : Str} {l m : List (CurvePoint D)} (h : PipeReads CurvePoint.parse p l) (h' : PipeReads CurvePoint.parse q m)
    (e : TextSame p q) : Each (fun p q => PosSame p.pos q.pos) l m := by
  have ne : ∀ {p : Str} {l : List (CurvePoint D)}, (splitOnC '|' p).map CurvePoint.parse = l.map .ok → bareText p ≠ [] := by
    intro p l h hb
    have hs := bareText_splitOnC (c := '|') (by decide) (by decide) p
    rw [hb] at hs
    cases hp : splitOnC '|' p with
    | nil => exact absurd hp (splitOnC_ne_nil _ _)
    | cons a as =>
      rw [hp] at hs h
      cases l with
      | nil => cases h
      | cons x l =>
        simp only [List.map_cons, List.cons.injEq] at h
        have hs : [[]] = bareText a :: as.map bareText := hs
        simp only [List.cons.injEq] at hs
        obtain ⟨u, w, rfl, -⟩ := CurvePoint.parse_iff.1 h.1
        rw [bareText_append, bareText_colon] at hs
        have := hs.1.symm
        simp at this
  have e' : bareText p = bareText q := e
  rcases h with ⟨rfl, rfl⟩ | ⟨-, -, h⟩ <;> rcases h' with ⟨rfl, rfl⟩ | ⟨-, -, h'⟩
  · exact .nil
  · exact absurd e'.symm (ne h')
  · exact absurd e' (ne h)
  · exact each_read (map_ok_each h) (map_ok_each h') (f := bareText) (fun a b x y hx hy hab => point_same hx hy hab)
      (e.pieces (by decide) (by decide))

theorem curve_same {v : Nat} {p q : Str} {c d : CurveType} {l m : List (CurvePoint D)} (h : CurveReads v p c l) (h' : CurveReads v q d m)
    (e : TextSame p q) : c = d ∧ Each (fun p q => PosSame p.pos q.pos) l m := by
  have bar : ∀ s, bareText ('|' :: s) = '|' :: bareText s := fun _ => rfl
  have cross : ∀ {p a b : Str} {c d : CurveType}, CurveType.parse p = .ok c → CurveType.parse a = .ok d →
      bareText p = bareText (a ++ '|' :: b) → False := by
    intro p a b c d h1 h2 e
    have h := curveType_bare h1
    rw [h.1, bareText_append, bar] at e
    exact h.2 (by rw [e]; simp)
  have e' : bareText p = bareText q := e
  rcases h with ⟨h1, rfl⟩ | ⟨a, b, l', rfl, ha, h1, h2, rfl⟩ <;> rcases h' with ⟨g1, rfl⟩ | ⟨a', b', m', rfl, ha', g1, g2, rfl⟩
  · rw [(curveType_bare h1).1, (curveType_bare g1).1] at e'
    subst e'
    rw [h1] at g1; cases g1
    exact ⟨rfl, .nil⟩
  · exact (cross h1 g1 e').elim
  · exact (cross g1 h1 e'.symm).elim
  · rw [bareText_append, bareText_append, bar, bar] at e'
    obtain ⟨e1, e2⟩ := sep_split (bareText_mem (lacks_not ha)) (bareText_mem (lacks_not ha')) e'
    rw [(curveType_bare h1).1, (curveType_bare g1).1] at e1
    subst e1
    rw [h1] at g1; cases g1
    refine ⟨rfl, ?_⟩
    have := points_same h2 g2 e2
    split
    · exact this.tail
    · exact this

theorem hold_same {v : Nat} {p q : Str} {x y : Decimal D} {o o' : Option HitSample} (h : HoldReads v p x o) (h' : HoldReads v q y o')
    (e : TextSame p q) : TimeSame v x y ∧ OptSame SampleSame o o' := by
  obtain ⟨a, b, s, rfl, h1, h2, h3, rfl⟩ := h
  obtain ⟨a', b', s', rfl, g1, g2, g3, rfl⟩ := h'
  unfold TextSame at e
  rw [bareText_append, bareText_append, bareText_colon, bareText_colon] at e
  obtain ⟨e1, e2⟩ := sep_split (bareText_mem (lacks_not h1)) (bareText_mem (lacks_not g1)) e
  exact ⟨⟨a, a', e1, h2, g2⟩, sample_same h3 g3 (TextSame.pieces (by decide) (by decide) e2)⟩

theorem hoHead_same {v : Nat} {x y t ty hs x' y' t' ty' hs' : Str} {n n' : Int32} {o o' : HitObject D} (h : HOHead v x y t ty hs n o)
    (h' : HOHead v x' y' t' ty' hs' n' o') (e1 : TextSame x x') (e2 : TextSame y y') (e3 : TextSame t t') (e4 : TextSame ty ty')
    (e5 : TextSame hs hs') : n = n' ∧ PosSame o.position o'.position ∧ TimeSame v o.time o'.time ∧ o.newCombo = o'.newCombo ∧
      o.comboSkip = o'.comboSkip ∧ o.hitsound = o'.hitsound := by
  have hn : n = n' := num_same (fun _ _ h => (parseI32_chars h).2) h.type h'.type e4
  subst hn
  refine ⟨rfl, ⟨⟨x, x', e1, h.x, h'.x⟩, ⟨y, y', e2, h.y, h'.y⟩⟩, ⟨t, t', e3, h.time, h'.time⟩, ?_, ?_, ?_⟩
  · rw [Bool.eq_iff_iff, h.newCombo, h'.newCombo]
  · have : (o.comboSkip.val.toNat : Int) = o'.comboSkip.val.toNat := h.skip.trans h'.skip.symm
    have := UInt8.toNat_inj.1 (Int.ofNat.inj this)
    cases hc : o.comboSkip; cases hc' : o'.comboSkip
    rw [hc, hc'] at this
    exact congrArg _ this
  · exact num_same (fun _ _ => HitSound.parse_chars) h.hitsound h'.hitsound e5

theorem object_same {v : Nat} {ps qs : List Str} {o o' : HitObject D} (h : HOReads v ps o) (h' : HOReads v qs o')
    (e : ps.map bareText = qs.map bareText) : ObjectSame v o o' := by
  cases h with
  | circle h h0 hp hq =>
    cases h' with
    | circle h' h0' hp' hq' =>
      simp only [List.map_cons, List.cons.injEq] at e
      obtain ⟨e1, e2, e3, e4, e5, e6⟩ := e
      obtain ⟨-, a, b, c⟩ := hoHead_same h h' e1 e2 e3 e4 e5
      exact ⟨a, b, by rw [hp, hp']; exact .circle, sampleTail_same hq hq' e6, c⟩
    | slider h' h0' h1' hp' hq' =>
      simp only [List.map_cons, List.cons.injEq] at e
      obtain ⟨e1, e2, e3, e4, e5, e6⟩ := e
      obtain ⟨rfl, -⟩ := hoHead_same h h' e1 e2 e3 e4 e5
      exact absurd h0 h0'
    | spinner h' h0' =>
      simp only [List.map_cons, List.cons.injEq] at e
      obtain ⟨e1, e2, e3, e4, e5, e6⟩ := e
      obtain ⟨rfl, -⟩ := hoHead_same h h' e1 e2 e3 e4 e5
      exact absurd h0 h0'
    | hold h' h0' =>
      simp only [List.map_cons, List.cons.injEq] at e
      obtain ⟨e1, e2, e3, e4, e5, e6⟩ := e
      obtain ⟨rfl, -⟩ := hoHead_same h h' e1 e2 e3 e4 e5
      exact absurd h0 h0'
  | slider h h0 h1 hp hq =>
    cases h' with
    | slider h' h0' h1' hp' hq' =>
      simp only [List.map_cons, List.cons.injEq] at e
      obtain ⟨e1, e2, e3, e4, e5, e6, e7, e8, e9⟩ := e
      obtain ⟨-, a, b, c⟩ := hoHead_same h h' e1 e2 e3 e4 e5
      obtain ⟨f1, f2⟩ := curve_same hq.curve hq'.curve e6
      have f3 := num_same (fun _ _ h => (parseI32_chars h).2) hq.slides hq'.slides e7
      obtain ⟨f4, f5, f6, f7, f8⟩ := edges_same hq.edges hq'.edges e9
      refine ⟨a, b, ?_, f8, c⟩
      rw [hp, hp']
      refine .slider f2 ⟨_, _, e8, hq.length, hq'.length⟩ ?_
      rename_i p _ _ _ _ _ _ _ _ _ _ _ p'
      cases p; cases p'
      simp only at f1 f3 f4 f5 f6 f7 ⊢
      subst f1 f3 f4 f5 f6 f7
      rfl
    | circle h' h0' =>
      simp only [List.map_cons, List.cons.injEq] at e
      obtain ⟨e1, e2, e3, e4, e5, e6⟩ := e
      obtain ⟨rfl, -⟩ := hoHead_same h h' e1 e2 e3 e4 e5
      exact absurd h0' h0
    | spinner h' h0' h1' =>
      simp only [List.map_cons, List.cons.injEq] at e
      obtain ⟨e1, e2, e3, e4, e5, e6⟩ := e
      obtain ⟨rfl, -⟩ := hoHead_same h h' e1 e2 e3 e4 e5
      exact absurd h1 h1'
    | hold h' h0' h1' =>
      simp only [List.map_cons, List.cons.injEq] at e
      obtain ⟨e1, e2, e3, e4, e5, e6⟩ := e
      obtain ⟨rfl, -⟩ := hoHead_same h h' e1 e2 e3 e4 e5
      exact absurd h1 h1'
  | spinner h h0 h1 h3 hp he hq =>
    cases h' with
    | spinner h' h0' h1' h3' hp' he' hq' =>
      simp only [List.map_cons, List.cons.injEq] at e
      obtain ⟨e1, e2, e3, e4, e5, e6, e7⟩ := e
      obtain ⟨-, a, b, c⟩ := hoHead_same h h' e1 e2 e3 e4 e5
      refine ⟨a, b, ?_, sampleTail_same hq hq' e7, c⟩
      rw [hp, hp']
      exact .spinner ⟨_, _, e6, he, he'⟩
    | circle h' h0' =>
      simp only [List.map_cons, List.cons.injEq] at e
      obtain ⟨e1, e2, e3, e4, e5, e6⟩ := e
      obtain ⟨rfl, -⟩ := hoHead_same h h' e1 e2 e3 e4 e5
      exact absurd h0' h0
    | slider h' h0' h1' =>
      simp only [List.map_cons, List.cons.injEq] at e
      obtain ⟨e1, e2, e3, e4, e5, e6⟩ := e
      obtain ⟨rfl, -⟩ := hoHead_same h h' e1 e2 e3 e4 e5
      exact absurd h1' h1
    | hold h' h0' h1' h3' =>
      simp only [List.map_cons, List.cons.injEq] at e
      obtain ⟨e1, e2, e3, e4, e5, e6⟩ := e
      obtain ⟨rfl, -⟩ := hoHead_same h h' e1 e2 e3 e4 e5
      exact absurd h3 h3'
  | hold h h0 h1 h3 h7 hp hq =>
    cases h' with
    | hold h' h0' h1' h3' h7' hp' hq' =>
      simp only [List.map_cons, List.cons.injEq] at e
      obtain ⟨e1, e2, e3, e4, e5, e6, e7⟩ := e
      obtain ⟨-, a, b, c⟩ := hoHead_same h h' e1 e2 e3 e4 e5
      obtain ⟨f1, f2⟩ := hold_same hq hq' (TextSame.join (c := ',') (by decide) (by decide) (by simp only [List.map_cons, e6, e7]))
      refine ⟨a, b, ?_, f2, c⟩
      rw [hp, hp']
      exact .hold f1
    | circle h' h0' =>
      simp only [List.map_cons, List.cons.injEq] at e
      obtain ⟨e1, e2, e3, e4, e5, e6⟩ := e
      obtain ⟨rfl, -⟩ := hoHead_same h h' e1 e2 e3 e4 e5
      exact absurd h0' h0
    | slider h' h0' h1' =>
      simp only [List.map_cons, List.cons.injEq] at e
      obtain ⟨e1, e2, e3, e4, e5, e6⟩ := e
      obtain ⟨rfl, -⟩ := hoHead_same h h' e1 e2 e3 e4 e5
      exact absurd h1' h1
    | spinner h' h0' h1' h3' =>
      simp only [List.map_cons, List.cons.injEq] at e
      obtain ⟨e1, e2, e3, e4, e5, e6⟩ := e
      obtain ⟨rfl, -⟩ := hoHead_same h h' e1 e2 e3 e4 e5
      exact absurd h3' h3

theorem hoReads_comma {v : Nat} {ps : List Str} {o : HitObject D} (h : HOReads v ps o) : 2 ≤ ps.length := by
  cases h <;> simp

end

end Osu
