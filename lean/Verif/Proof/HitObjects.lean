/-
Hit objects: exact meaning of a line, printing, panics.
-/
import Verif.Proof.HitSample

namespace Osu
open Parser

/-! ### A bar separated list and what follows it -/

theorem pipeVec_blank {γ ε α : Type} {f : Str → Res ε α} {p T : Str} {e : ε} (hp : AllC isSpace p) (hT : AtComma T)
    (he : f p = .err e) : (pipeVec f : Parser γ (List α)) (p ++ T) = .ok (p ++ T) [] := by
  rw [pipeVec_eq, sepList0_eq (mapRes_shrinks (takeWhile_shrinks _))]
  have : (mapRes (Parser.takeWhile pipeC) f : Parser γ α) (p ++ T) = .error [(p ++ T, .nom .mapRes)] := by
    refine Parser.mapRes_err (takeWhile_ok ?_ (headNot_comma hT).1) he
    exact hp.mono fun c hc => by
      have : c = ' ' ∨ c = '\t' := by simpa [isSpace] using hc
      rcases this with rfl | rfl <;> decide
  simp only [this]

/-- What a parser at the end of a line does: nothing is left, or blanks are left, or a comma follows. -/
def LineEnd {γ β : Type} (K : Parser γ β) (R : List Str → β → Prop) (e : β) : Prop :=
  ∀ (r : Str) (qs : List Str) (x : Str) (o : β), NoC ',' r → (∀ q ∈ qs, NoC ',' q) →
    (K (r ++ preC ',' qs) = .ok x o ↔
      x = [] ∧ ((r = [] ∧ R qs o) ∨ (r ≠ [] ∧ AllC isSpace r ∧ qs = [] ∧ o = e)))

theorem pipeThen_iff {γ ε α β : Type} {f : Str → Res ε α} {K : Parser γ β} {R : List Str → β → Prop} {e : β}
    (hb : ∀ p, AllC isSpace p → ∃ e, f p = .err e) (hn : ∀ q, f q ≠ .panic) (hK : LineEnd K R e)
    (hR : ∀ o, R [] o ↔ o = e) {c : γ} {p : Str} {qs : List Str} (hp : NoC ',' p) (hqs : ∀ q ∈ qs, NoC ',' q) {x : Str} {l : List α} {o : β}
    {δ : Type} {g : List α → β → δ} (hg : ∀ l o l' o', g l o = g l' o' → l = l' ∧ o = o') :
    ((context c (pipeVec f)).bind fun l => K.bind fun o => ret (g l o)) (p ++ preC ',' qs) = .ok x (g l o) ↔
      x = [] ∧ ((PipeReads f p l ∧ R qs o) ∨ (AllC isSpace p ∧ l = [] ∧ qs = [] ∧ o = e)) := by
  have hT := atComma_preC qs
  simp only [bind_eq_ok, context_eq_ok, ret_eq_ok]
  constructor
  · rintro ⟨r1, l', h1, r2, o', h2, rfl, hgo⟩
    obtain ⟨rfl, rfl⟩ := hg _ _ _ _ hgo
    obtain ⟨r, l'', h3, hr, h4⟩ := pipeVec_cases (γ := γ) (hb [] .nil) hn hp hT
    rw [h3] at h1
    cases h1
    obtain ⟨rfl, h5⟩ := (hK r qs _ _ hr hqs).1 h2
    refine ⟨rfl, ?_⟩
    rcases h4 with ⟨rfl, h4⟩ | ⟨hr0, h4⟩
    · rcases h5 with ⟨_, h5⟩ | ⟨h5, _⟩
      · exact .inl ⟨h4, h5⟩
      · exact absurd rfl h5
    · rcases h5 with ⟨h5, _⟩ | ⟨_, h5, rfl, rfl⟩
      · exact absurd h5 hr0
      · rcases h4 with ⟨rfl, rfl⟩ | ⟨c, r', rfl, hc⟩
        · exact .inr ⟨h5, rfl, rfl, rfl⟩
        · have := h5.of_cons.1
          have : c = ' ' ∨ c = '\t' := by simpa [isSpace] using this
          rcases this with rfl | rfl <;> exact absurd hc (by decide)
  · rintro ⟨rfl, h | ⟨h1, rfl, rfl, rfl⟩⟩
    · refine ⟨preC ',' qs, l, pipeVec_ok (hb [] .nil) hp hT h.1, [], o, ?_, rfl, rfl⟩
      exact (hK [] qs _ _ .nil hqs).2 ⟨rfl, .inl ⟨rfl, h.2⟩⟩
    · obtain ⟨e', he'⟩ := hb p h1
      refine ⟨p ++ preC ',' [], [], pipeVec_blank h1 hT he', [], o, ?_, rfl, rfl⟩
      refine (hK p [] _ _ hp hqs).2 ⟨rfl, ?_⟩
      by_cases hp0 : p = []
      · exact .inl ⟨hp0, (hR o).2 rfl⟩
      · exact .inr ⟨hp0, h1, rfl, rfl⟩

/-- `LineEnd` of "nothing, or a comma and more". -/
theorem lineEnd_alt {γ β : Type} {c : γ} {p : Parser γ β} {R : List Str → β → Prop} {e : β}
    (h0 : ∀ o, R [] o ↔ o = e)
    (h1 : ∀ (q : Str) (qs : List Str) (x : Str) (o : β), NoC ',' q → (∀ q ∈ qs, NoC ',' q) →
      (p (q ++ preC ',' qs) = .ok x o ↔ x = [] ∧ R (q :: qs) o)) :
    LineEnd (alt [nothing.map fun _ => e, preceded (context c comma) p]) R e := by
  intro r qs x o hr hqs
  simp only [alt_cons_eq_ok, alt_nil_eq_ok, or_false, and_false]
  have key : ∀ x' o', (nothing.map fun _ => e : Parser γ β) (r ++ preC ',' qs) = .ok x' o' ↔
      AllC isSpace r ∧ qs = [] ∧ x' = [] ∧ o' = e := by
    intro x' o'
    rw [map_eq_ok]
    simp only [nothing_eq_ok]
    constructor
    · rintro ⟨_, ⟨h, rfl, rfl⟩, rfl⟩
      exact ⟨fun c hc => h c (by simp [hc]), space_preC (c := ',') (by decide) fun c hc => h c (by simp [hc]), rfl, rfl⟩
    · rintro ⟨h, rfl, rfl, rfl⟩
      exact ⟨[], ⟨by rw [preC_nil, List.append_nil]; exact h, rfl, rfl⟩, rfl⟩
  by_cases hn : AllC isSpace r ∧ qs = []
  · have hk := (key [] e).2 ⟨hn.1, hn.2, rfl, rfl⟩
    rw [hk]
    obtain ⟨hn1, rfl⟩ := hn
    constructor
    · rintro (h | ⟨⟨_, h⟩, _⟩)
      · cases h
        refine ⟨rfl, ?_⟩
        by_cases hr0 : r = []
        · exact .inl ⟨hr0, (h0 _).2 rfl⟩
        · exact .inr ⟨hr0, hn1, rfl, rfl⟩
      · cases h
    · rintro ⟨rfl, ⟨_, h⟩ | ⟨_, _, _, rfl⟩⟩
      · rw [h0] at h; subst h; exact .inl rfl
      · exact .inl rfl
  · have he : ∃ er, (nothing.map fun _ => e : Parser γ β) (r ++ preC ',' qs) = .error er := by
      refine map_err (nothing_err fun h => hn ⟨fun c hc => h c (by simp [hc]), ?_⟩)
      exact space_preC (c := ',') (by decide) fun c hc => h c (by simp [hc])
    have hne : ¬ (nothing.map fun _ => e : Parser γ β) (r ++ preC ',' qs) = .ok x o := by
      intro h; obtain ⟨a, b, _⟩ := (key x o).1 h; exact hn ⟨a, b⟩
    simp only [hne, he, false_or, true_and]
    cases r with
    | nil =>
      rw [List.nil_append, comma_pieces]
      have hq : qs ≠ [] := fun h => hn ⟨.nil, h⟩
      constructor
      · rintro ⟨q, qs', rfl, h⟩
        obtain ⟨hx, hR⟩ := (h1 q qs' x o (hqs q (by simp)) fun q hq => hqs q (by simp [hq])).1 h
        exact ⟨hx, .inl ⟨rfl, hR⟩⟩
      · rintro ⟨rfl, ⟨_, h⟩ | ⟨h, _⟩⟩
        · cases qs with
          | nil => exact absurd rfl hq
          | cons q qs =>
            exact ⟨q, qs, rfl, (h1 q qs _ o (hqs q (by simp)) fun q hq => hqs q (by simp [hq])).2 ⟨rfl, h⟩⟩
        · exact absurd rfl h
    | cons d r =>
      have hd := hr.of_cons.1
      simp only [preceded_eq_ok, context_eq_ok, comma_eq_ok]
      constructor
      · rintro ⟨r1, _, ⟨h, _⟩, _⟩
        cases h
        simp at hd
      · rintro ⟨rfl, ⟨h, _⟩ | ⟨_, h1, h2, _⟩⟩
        · cases h
        · exact absurd ⟨h1, h2⟩ hn

namespace HitObject
variable {D : Type} [DecLib D]

theorem hitsampleP_lineEnd : LineEnd hitsampleP SampleTail none := by
  have e : hitsampleP = alt [
    nothing.map fun _ => none,
    preceded (context .missingHitSample comma)
      ((context .invalidHitSample (mapRes rest HO.HitSample.parse)).map some)] := by
    funext s
    unfold hitsampleP alt
    simp only [altAux]
    have : ((preceded (context HOErr.missingHitSample comma)
      (context .invalidHitSample (mapRes rest HO.HitSample.parse))).map some) s =
      preceded (context .missingHitSample comma)
      ((context .invalidHitSample (mapRes rest HO.HitSample.parse)).map some) s := by
      unfold preceded
      simp only [Parser.map, Parser.bind]
      cases context HOErr.missingHitSample comma s <;> rfl
    rw [this]
  rw [e]
  refine lineEnd_alt (fun o => Iff.rfl) ?_
  intro q qs x o hq hqs
  simp only [map_eq_ok, context_eq_ok, mapRes_eq_ok, rest_eq_ok]
  unfold SampleTail
  rw [← join_eq_preC]
  constructor
  · rintro ⟨h, ⟨t, ⟨rfl, rfl⟩, hp⟩, rfl⟩
    exact ⟨rfl, h, HO.HitSample.parse_iff.1 hp, rfl⟩
  · rintro ⟨rfl, h, hp, rfl⟩
    exact ⟨h, ⟨_, ⟨rfl, rfl⟩, HO.HitSample.parse_iff.2 hp⟩, rfl⟩

/-- Edge sets and what follows, as a relation on pieces. -/
def SetReads (qs : List Str) (t : List HO.EdgeSet × Option HO.HitSample × Bool) : Prop :=
  match qs with
  | [] => t = ([], none, true)
  | q :: qs => t.2.2 = false ∧ ((PipeReads HO.EdgeSet.parse q t.1 ∧ SampleTail qs t.2.1) ∨
      (AllC isSpace q ∧ t.1 = [] ∧ qs = [] ∧ t.2.1 = none))

theorem space_noColon {p : Str} (h : AllC isSpace p) : NoC ':' p :=
  h.mono fun c hc => by
    have : c = ' ' ∨ c = '\t' := by simpa [isSpace] using hc
    rcases this with rfl | rfl <;> decide

theorem preceded_bind {γ α β δ : Type} (p : Parser γ α) (q : Parser γ β) (k : β → Parser γ δ) :
    (preceded p q).bind k = preceded p (q.bind k) := by
  funext s
  unfold preceded
  simp only [Parser.bind]
  cases p s <;> rfl

theorem edgeSetP_lineEnd : LineEnd edgeSetP SetReads ([], none, true) := by
  unfold edgeSetP
  rw [preceded_bind]
  refine lineEnd_alt (fun o => Iff.rfl) ?_
  rintro q qs x ⟨es, h, b⟩ hq hqs
  have key := fun (es : List HO.EdgeSet) (h : Option HO.HitSample) =>
    pipeThen_iff (c := HOErr.invalidEdgeSet) (x := x) (l := es) (o := h) (g := fun es h => (es, h, false))
    (fun p hp => HO.EdgeSet.parse_blank (space_noColon hp)) HO.EdgeSet.parse_no_panic hitsampleP_lineEnd (fun o => Iff.rfl) hq hqs
    (by intro l o l' o' h; cases h; exact ⟨rfl, rfl⟩)
  cases b with
  | false => rw [key]; simp [SetReads]
  | true =>
    simp only [SetReads, Bool.true_eq_false, false_and, and_false, iff_false]
    intro h'
    simp only [bind_eq_ok, ret_eq_ok] at h'
    obtain ⟨_, _, _, _, _, _, _, h'⟩ := h'
    cases h'

/-- Edge sounds and what follows, as a relation on pieces. -/
def SoundReads (qs : List Str) (t : List HO.HitSound × List HO.EdgeSet × Option HO.HitSample × Bool × Bool) : Prop :=
  match qs with
  | [] => t = ([], [], none, true, true)
  | q :: qs => t.2.2.2.1 = false ∧ ((PipeReads HO.HitSound.parse q t.1 ∧ SetReads qs (t.2.1, t.2.2.1, t.2.2.2.2)) ∨
      (AllC isSpace q ∧ t.1 = [] ∧ qs = [] ∧ (t.2.1, t.2.2.1, t.2.2.2.2) = (([] : List HO.EdgeSet), (none : Option HO.HitSample), true)))

theorem edgeP_lineEnd : LineEnd edgeP SoundReads ([], [], none, true, true) := by
  unfold edgeP
  rw [preceded_bind]
  refine lineEnd_alt (fun o => Iff.rfl) ?_
  rintro q qs x ⟨ss, es, h, a, b⟩ hq hqs
  have key := fun (ss : List HO.HitSound) (t : List HO.EdgeSet × Option HO.HitSample × Bool) =>
    pipeThen_iff (c := HOErr.invalidEdgeSound) (x := x) (l := ss) (o := t) (g := fun ss t => (ss, t.1, t.2.1, false, t.2.2))
    (fun p hp => HO.HitSound.parse_blank hp) HO.HitSound.parse_no_panic edgeSetP_lineEnd (fun o => Iff.rfl) hq hqs
    (by rintro l ⟨a, b, c⟩ l' ⟨a', b', c'⟩ h; cases h; exact ⟨rfl, rfl⟩)
  cases a with
  | false =>
    have := key ss (es, h, b)
    simp only at this
    rw [this]; simp [SoundReads]
  | true =>
    simp only [SoundReads, Bool.true_eq_false, false_and, and_false, iff_false]
    intro h'
    simp only [bind_eq_ok, ret_eq_ok] at h'
    obtain ⟨_, _, _, _, _, _, _, h'⟩ := h'
    cases h'

theorem soundReads_iff {qs : List Str} {ss : List HO.HitSound} {es : List HO.EdgeSet} {o : Option HO.HitSample} {a b : Bool} :
    SoundReads qs (ss, es, o, a, b) ↔ EdgeReads qs ss a es b o := by
  constructor
  · intro h
    cases qs with
    | nil => cases h; exact .none
    | cons p qs =>
      obtain ⟨ha, h⟩ := h
      simp only at ha
      subst ha
      rcases h with ⟨h, h'⟩ | ⟨h, h1, rfl, h2⟩
      · cases qs with
        | nil =>
          simp only [SetReads, Prod.mk.injEq] at h'
          obtain ⟨rfl, rfl, rfl⟩ := h'
          exact .sounds (.inl h)
        | cons q qs =>
          obtain ⟨hb, h'⟩ := h'
          simp only at hb
          subst hb
          rcases h' with ⟨h', ho⟩ | ⟨h', h1, rfl, h2⟩
          · cases qs with
            | nil => cases ho; exact .sets h (.inl h')
            | cons r rs => exact .sample h h' ho
          · simp only at h1 h2
            subst h1 h2
            exact .sets h (.inr ⟨blanks_iff.2 h', rfl⟩)
      · simp only [Prod.mk.injEq] at h1 h2
        obtain ⟨rfl, rfl, rfl⟩ := h2
        subst h1
        exact .sounds (.inr ⟨blanks_iff.2 h, rfl⟩)
  · intro h
    cases h with
    | none => rfl
    | sounds h =>
      rcases h with h | ⟨h, rfl⟩
      · exact ⟨rfl, .inl ⟨h, rfl⟩⟩
      · exact ⟨rfl, .inr ⟨blanks_iff.1 h, rfl, rfl, rfl⟩⟩
    | sets h h' =>
      rcases h' with h' | ⟨h', rfl⟩
      · exact ⟨rfl, .inl ⟨h, rfl, .inl ⟨h', rfl⟩⟩⟩
      · exact ⟨rfl, .inl ⟨h, rfl, .inr ⟨blanks_iff.1 h', rfl, rfl, rfl⟩⟩⟩
    | sample h h' ho => exact ⟨rfl, .inl ⟨h, rfl, .inl ⟨h', ho⟩⟩⟩

/-! ### Curves -/

theorem curveType_chars {s : Str} {c : HO.CurveType} (h : HO.CurveType.parse s = .ok c) : s = c.shw := by
  unfold HO.CurveType.parse at h
  split at h
  · cases h; assumption
  · split at h
    · cases h; assumption
    · split at h
      · cases h; assumption
      · split at h
        · cases h; assumption
        · cases h

theorem curveType_round (c : HO.CurveType) : HO.CurveType.parse c.shw = .ok c := by cases c <;> decide

theorem tail_eq {α : Type} {v : Nat} (l : List α) [Decidable (v = 3 ∧ l ≠ [])] :
    (if v = 3 ∧ l ≠ [] then l.tail else l) = if v = 3 then l.tail else l := by
  by_cases hv : v = 3
  · cases l with
    | nil => simp
    | cons a l => simp [hv]
  · simp [hv]

/-- The curve, followed by a parser that needs a comma. -/
theorem curveP_iff {β : Type} {v : Nat} {K : HO.CurveType × List (HO.CurvePoint D) → Parser HOErr β}
    (hK : ∀ c d r x b, d ≠ ',' → K c (d :: r) ≠ .ok x b) {qs : List Str} (hqs : ∀ q ∈ qs, NoC ',' q) {x : Str} {b : β} :
    ((curveP v).bind K) (preC ',' qs) = .ok x b ↔
      ∃ q qs' c pts, qs = q :: qs' ∧ CurveReads v q c pts ∧ K (c, pts) (preC ',' qs') = .ok x b := by
  have bar : ∀ c : HO.CurveType, ¬ '|' ∈ c.shw := by intro c; cases c <;> decide
  have alt1 : ∀ r c pts, (((preceded (context HOErr.missingCurveType comma)
      (context .invalidCurveType (commaFieldType HO.CurveType.parse))).map fun c => (c, ([] : List (HO.CurvePoint D))))) (preC ',' qs) = .ok r (c, pts) ↔
      ∃ q qs', qs = q :: qs' ∧ HO.CurveType.parse q = .ok c ∧ r = preC ',' qs' ∧ pts = [] := by
    intro r c pts
    simp only [map_eq_ok, commaThen_pieces hqs]
    constructor
    · rintro ⟨c', ⟨q, qs', rfl, h, rfl⟩, h'⟩; cases h'; exact ⟨q, qs', rfl, h, rfl, rfl⟩
    · rintro ⟨q, qs', rfl, h, rfl, rfl⟩; exact ⟨c, ⟨q, qs', rfl, h, rfl⟩, rfl⟩
  have alt1err : ∀ q qs', qs = q :: qs' → (∀ c, HO.CurveType.parse q ≠ .ok c) → ∃ e, (((preceded (context HOErr.missingCurveType comma)
      (context .invalidCurveType (commaFieldType HO.CurveType.parse))).map fun c => (c, ([] : List (HO.CurvePoint D))))) (preC ',' qs) = .error e := by
    intro q qs' h hq
    subst h
    have hn := hqs q (by simp)
    refine map_err (preceded_err' (r := q ++ preC ',' qs') (a := [',']) ?_ (context_err ?_))
    · rw [context_eq_ok, comma_eq_ok, preC_cons]; exact ⟨rfl, rfl⟩
    · cases hp : HO.CurveType.parse q with
      | ok c => exact absurd hp (hq c)
      | err e => exact mapRes_err' (commaField_pieces hn) hp
      | panic => exact absurd hp (HO.CurveType.parse_no_panic q)
  rw [bind_eq_ok]
  unfold curveP
  constructor
  · rintro ⟨r, ⟨c, pts⟩, h, hk⟩
    rw [alt_cons_eq_ok] at h
    rcases h with h | ⟨_, h⟩
    · obtain ⟨q, qs', rfl, h1, rfl, rfl⟩ := (alt1 _ _ _).1 h
      exact ⟨q, qs', c, [], rfl, .inl ⟨h1, rfl⟩, hk⟩
    · simp only [alt_cons_eq_ok, alt_nil_eq_ok, or_false, and_false] at h
      obtain ⟨r1, c', h1, h⟩ := bind_eq_ok.1 h
      obtain ⟨r2, ps, h2, h⟩ := bind_eq_ok.1 h
      obtain ⟨rfl, h⟩ := ret_eq_ok.1 h
      cases h
      rw [comma_pieces] at h1
      obtain ⟨q, qs', rfl, h1⟩ := h1
      have hq := hqs q (by simp)
      rw [context_eq_ok, mapRes_eq_ok] at h1
      obtain ⟨t, h1, ht⟩ := h1
      unfold takeTill at h1
      obtain ⟨h1, h1', _⟩ := takeWhile_eq_ok.1 h1
      have htc := curveType_chars ht
      simp only [preceded_eq_ok, context_eq_ok, char_eq_ok, map_eq_ok] at h2
      obtain ⟨r3, _, ⟨rfl, _⟩, l, h2, rfl⟩ := h2
      -- the text up to the bar lies in the first piece
      have hpre : ∃ u, q = t ++ '|' :: u ∧ r3 = u ++ preC ',' qs' := by
        have hlen : ∃ u, q = t ++ u := by
          have hcomma : NoC ',' t := by rw [htc]; cases c <;> decide
          rcases List.append_eq_append_iff.1 h1 with ⟨a, ha, hb⟩ | ⟨a, ha, hb⟩
          · cases a with
            | nil => exact ⟨[], by simpa using ha.symm⟩
            | cons d a =>
              cases qs' with
              | nil => rw [preC_nil] at hb; cases hb
              | cons q' qs' =>
                rw [preC_cons] at hb
                have hd : ',' = d := (List.cons.inj hb).1
                subst hd
                exact absurd (hcomma ',' (by rw [ha]; simp)) (by simp)
          · exact ⟨a, ha⟩
        obtain ⟨u, rfl⟩ := hlen
        rw [List.append_assoc, List.append_cancel_left_eq] at h1
        cases u with
        | nil =>
          cases qs' with
          | nil => cases h1
          | cons q' qs' => rw [preC_cons] at h1; cases h1
        | cons d u =>
          cases h1
          exact ⟨u, rfl, rfl⟩
      obtain ⟨u, rfl, rfl⟩ := hpre
      have hu : NoC ',' u := fun c hc => hq c (by simp [hc])
      obtain ⟨r, l', h3, hr, h4⟩ := pipeVec_cases (γ := HOErr) (f := (HO.CurvePoint.parse : Str → Res _ (HO.CurvePoint D)))
        (HO.CurvePoint.parse_blank .nil) HO.CurvePoint.parse_no_panic hu (atComma_preC qs')
      rw [h3] at h2
      cases h2
      rcases h4 with ⟨rfl, h4⟩ | ⟨hr0, _⟩
      · refine ⟨_, qs', c, _, rfl, .inr ⟨t, u, l, rfl, ?_, ht, h4, (tail_eq l)⟩, hk⟩
        rw [lacks_iff]
        exact h1'
      · cases r with
        | nil => exact absurd rfl hr0
        | cons d r =>
          refine absurd hk (hK _ _ _ _ _ ?_)
          rintro rfl
          exact absurd hr.of_cons.1 (by simp)
  · rintro ⟨q, qs', c, pts, rfl, hc, hk⟩
    have hq := hqs q (by simp)
    refine ⟨preC ',' qs', (c, pts), ?_, hk⟩
    rcases hc with ⟨hc, rfl⟩ | ⟨t, u, l, rfl, h1, h2, h3, rfl⟩
    · exact alt_cons_ok ((alt1 _ _ _).2 ⟨q, qs', rfl, hc, rfl, rfl⟩)
    · refine alt_cons_err (alt1err _ qs' rfl ?_) (alt_cons_ok ?_)
      · intro c' hc'
        apply bar c'
        rw [← curveType_chars hc']; simp
      · have hu : NoC ',' u := fun c hc => hq c (by simp [hc])
        refine bind_eq_ok.2 ⟨'|' :: (u ++ preC ',' qs'), c, ?_, bind_eq_ok.2 ⟨preC ',' qs', (if v = 3 then l.tail else l), ?_, rfl⟩⟩
        · rw [comma_pieces]
          refine ⟨_, qs', rfl, ?_⟩
          rw [context_eq_ok, mapRes_eq_ok]
          refine ⟨t, ?_, h2⟩
          unfold takeTill
          rw [takeWhile_eq_ok]
          exact ⟨by simp, lacks_iff.1 h1, .cons (by simp)⟩
        · simp only [preceded_eq_ok, context_eq_ok, char_eq_ok, map_eq_ok]
          exact ⟨_, '|', ⟨rfl, rfl⟩, l, pipeVec_ok (HO.CurvePoint.parse_blank .nil) hu (atComma_preC qs') h3, (tail_eq l)⟩

theorem comma_head {γ α β : Type} {c1 : γ} {p : Parser γ α} {k : α → Parser γ β} {d : Char} {r x : Str} {b : β} (hd : d ≠ ',') :
    ((preceded (context c1 comma) p).bind k) (d :: r) ≠ .ok x b := by
  intro h
  simp only [bind_eq_ok, preceded_eq_ok, context_eq_ok, comma_eq_ok] at h
  obtain ⟨_, _, ⟨_, _, ⟨h, _⟩, _⟩, _⟩ := h
  cases h; exact hd rfl

theorem sliderP_iff {v : Nat} {qs : List Str} (hqs : ∀ q ∈ qs, NoC ',' q) {x : Str} {p : SlideParams D} {o : Option HO.HitSample} :
    sliderP v (preC ',' qs) = .ok x (p, o) ↔
      x = [] ∧ ∃ c n l es, qs = c :: n :: l :: es ∧ SliderReads v c n l es p o := by
  unfold sliderP
  rw [curveP_iff (fun c d r x b hd => comma_head hd) hqs]
  constructor
  · rintro ⟨q, qs', c, pts, rfl, hc, h⟩
    have h1 : ∀ q ∈ qs', NoC ',' q := fun q hq => hqs q (by simp [hq])
    obtain ⟨r1, n, hn, h⟩ := bind_eq_ok.1 h
    obtain ⟨qn, qs2, rfl, hn', rfl⟩ := (commaThen_pieces h1).1 hn
    have h2 : ∀ q ∈ qs2, NoC ',' q := fun q hq => h1 q (by simp [hq])
    obtain ⟨r2, len, hl, h⟩ := bind_eq_ok.1 h
    obtain ⟨ql, qs3, rfl, hl', rfl⟩ := (commaThen_pieces h2).1 hl
    have h3 : ∀ q ∈ qs3, NoC ',' q := fun q hq => h2 q (by simp [hq])
    obtain ⟨r3, ⟨ss, es, o', a, b⟩, he, h⟩ := bind_eq_ok.1 h
    obtain ⟨rfl, h⟩ := ret_eq_ok.1 h
    cases h
    cases hl'
    have := (edgeP_lineEnd [] qs3 _ _ .nil h3).1 he
    obtain ⟨hx, ⟨_, he'⟩ | ⟨he', _⟩⟩ := this
    · exact ⟨hx, q, qn, ql, qs3, rfl, hc, hn', rfl, soundReads_iff.1 he'⟩
    · exact absurd rfl he'
  · rintro ⟨rfl, c, n, l, es, rfl, h⟩
    refine ⟨c, n :: l :: es, p.curveType, p.curvePoints, rfl, h.curve, ?_⟩
    have h1 : ∀ q ∈ n :: l :: es, NoC ',' q := fun q hq => hqs q (List.mem_cons_of_mem _ hq)
    have h2 : ∀ q ∈ l :: es, NoC ',' q := fun q hq => h1 q (List.mem_cons_of_mem _ hq)
    have h3 : ∀ q ∈ es, NoC ',' q := fun q hq => h2 q (List.mem_cons_of_mem _ hq)
    refine bind_eq_ok.2 ⟨_, p.slides, (commaThen_pieces h1).2 ⟨n, _, rfl, h.slides, rfl⟩, ?_⟩
    refine bind_eq_ok.2 ⟨_, Decimal.ofStr l, (commaThen_pieces h2).2 ⟨l, _, rfl, rfl, rfl⟩, ?_⟩
    refine bind_eq_ok.2 ⟨[], (p.edgeSounds, p.edgeSets, o, p.edgeSoundsShort, p.edgeSetsShort), ?_, ?_⟩
    · exact (edgeP_lineEnd [] es _ _ .nil h3).2 ⟨rfl, .inl ⟨rfl, soundReads_iff.2 h.edges⟩⟩
    · rw [← h.length]; rfl

/-! ### Spinners and hold notes -/

theorem spinnerP_iff {v : Nat} {qs : List Str} (hqs : ∀ q ∈ qs, NoC ',' q) {x : Str} {t : Decimal D} {o : Option HO.HitSample} :
    spinnerP v (preC ',' qs) = .ok x (t, o) ↔
      x = [] ∧ ∃ e qs', qs = e :: qs' ∧ TimeReads v e t ∧ SampleTail qs' o := by
  unfold spinnerP
  simp only [bind_eq_ok, mapP_eq_ok, commaThen_pieces hqs, ret_eq_ok]
  constructor
  · rintro ⟨_, t', ⟨d, ⟨q, qs', rfl, hd, rfl⟩, ht⟩, r2, o', ho, rfl, h⟩
    cases h; cases hd
    have h1 : ∀ q ∈ qs', NoC ',' q := fun q hq => hqs q (by simp [hq])
    obtain ⟨hx, ⟨_, ho'⟩ | ⟨ho', _⟩⟩ := (hitsampleP_lineEnd [] qs' _ _ .nil h1).1 ho
    · exact ⟨hx, q, qs', rfl, TimingPoint.shiftUp_iff.1 ht, ho'⟩
    · exact absurd rfl ho'
  · rintro ⟨rfl, e, qs', rfl, ht, ho⟩
    have h1 : ∀ q ∈ qs', NoC ',' q := fun q hq => hqs q (by simp [hq])
    exact ⟨_, t, ⟨_, ⟨e, qs', rfl, rfl, rfl⟩, TimingPoint.shiftUp_iff.2 ht⟩, [], o,
      (hitsampleP_lineEnd [] qs' _ _ .nil h1).2 ⟨rfl, .inl ⟨rfl, ho⟩⟩, rfl, rfl⟩

theorem takeUntil1_eq_ok {γ : Type} {c : Char} {s r a : Str} :
    (takeUntil [c] : Parser γ Str) s = .ok r a ↔ ∃ b, s = a ++ c :: b ∧ r = c :: b ∧ NoC c a := by
  unfold takeUntil
  induction s generalizing a with
  | nil => simp [Parser.splitAt]
  | cons d s ih =>
    by_cases hd : d = c
    · subst hd
      have : Parser.splitAt [d] (d :: s) = some ([], d :: s) := by simp [Parser.splitAt]
      rw [this]
      constructor
      · intro h; cases h; exact ⟨s, rfl, rfl, .nil⟩
      · rintro ⟨b, h, rfl, hn⟩
        cases a with
        | nil => cases h; rfl
        | cons e a =>
          cases h
          exact absurd hn.of_cons.1 (by simp)
    · have hd' : ¬ c = d := fun h => hd h.symm
      have e : Parser.splitAt [c] (d :: s) = match Parser.splitAt [c] s with
          | some (a, b) => some (d :: a, b) | none => none := by
        rw [Parser.splitAt, if_neg (by simp [hd'])]
        rfl
      rw [e]
      constructor
      · intro h
        cases hs : Parser.splitAt [c] s with
        | none => rw [hs] at h; cases h
        | some p =>
          obtain ⟨a', b'⟩ := p
          rw [hs] at h ih
          cases h
          obtain ⟨b, h1, h2, h3⟩ := (ih (a := a')).1 rfl
          exact ⟨b, by rw [h1]; rfl, h2, .cons (by simpa using hd) h3⟩
      · rintro ⟨b, h, rfl, hn⟩
        cases a with
        | nil => cases h; exact absurd rfl hd
        | cons e a =>
          obtain ⟨rfl, hs'⟩ := List.cons.inj h
          have := (ih (a := a)).2 ⟨b, hs', rfl, hn.of_cons.2⟩
          cases hs : Parser.splitAt [c] s with
          | none => rw [hs] at this; cases this
          | some p =>
            obtain ⟨a', b'⟩ := p
            rw [hs] at this
            cases this
            rfl

theorem holdP_iff {v : Nat} {qs : List Str} {x : Str} {t : Decimal D} {o : Option HO.HitSample} :
    holdP v (preC ',' qs) = .ok x (t, o) ↔
      x = [] ∧ ∃ q qs', qs = q :: qs' ∧ HoldReads v (join [','] (q :: qs')) t o := by
  unfold holdP HoldReads
  simp only [bind_eq_ok, comma_pieces, mapP_eq_ok, context_eq_ok, mapRes_eq_ok, takeUntil1_eq_ok, ret_eq_ok]
  constructor
  · rintro ⟨_, t', ⟨q, qs', rfl, d, ⟨a, ⟨b, hab, rfl, ha⟩, hd⟩, ht⟩, r2, o', ho, rfl, h⟩
    cases h; cases hd
    rw [alt_cons_eq_ok] at ho
    rcases ho with ho | ⟨_, ho⟩
    · obtain ⟨_, ho, _⟩ := map_eq_ok.1 ho
      exact absurd ((nothing_eq_ok.1 ho).1 ':' (by simp)) (by decide)
    · simp only [alt_cons_eq_ok, alt_nil_eq_ok, or_false, and_false, map_eq_ok, preceded_eq_ok, context_eq_ok, char_eq_ok,
        mapRes_eq_ok, rest_eq_ok] at ho
      obtain ⟨h, ⟨r3, _, ⟨hr, _⟩, t3, ⟨rfl, ht3⟩, hp⟩, rfl⟩ := ho
      cases hr
      subst ht3
      refine ⟨rfl, q, qs', rfl, a, _, h, by rw [join_eq_preC, hab], lacks_iff.2 ha, TimingPoint.shiftUp_iff.1 ht,
        HO.HitSample.parse_iff.1 hp, rfl⟩
  · rintro ⟨rfl, q, qs', rfl, a, b, h, hab, ha, ht, hp, rfl⟩
    rw [join_eq_preC] at hab
    refine ⟨_, t, ⟨q, qs', rfl, _, ⟨a, ⟨b, hab, rfl, lacks_iff.1 ha⟩, rfl⟩, TimingPoint.shiftUp_iff.2 ht⟩, [], some h, ?_, rfl, rfl⟩
    refine alt_cons_err (map_err (nothing_err_cons (by decide))) (alt_cons_ok ?_)
    simp only [map_eq_ok, preceded_eq_ok, context_eq_ok, char_eq_ok, mapRes_eq_ok, rest_eq_ok]
    exact ⟨h, ⟨b, ':', ⟨rfl, rfl⟩, b, ⟨trivial, rfl⟩, HO.HitSample.parse_iff.2 hp⟩, rfl⟩

/-! ### The whole line -/

theorem nthBit_iff {n : Int32} {k : Nat} : nthBit n k = true ↔ typeBit n k := by
  unfold nthBit typeBit; simp

theorem skipOf_toNat (t : Int32) : ((skipOf t).toNat : Int) = (t.toInt / 16) % 8 := by
  unfold skipOf
  have h1 : 0 ≤ (t.toInt / 16) % 8 := Int.emod_nonneg _ (by decide)
  have h2 : (t.toInt / 16) % 8 < 8 := Int.emod_lt_of_pos _ (by decide)
  rw [UInt8.toNat_ofNat']
  rw [Nat.mod_eq_of_lt (by omega)]
  omega

theorem skip_new (t : Int32) : HO.ComboSkipCount.new (skipOf t) = some ⟨skipOf t⟩ := by
  unfold HO.ComboSkipCount.new
  rw [if_neg]
  intro h
  have h : (7 : UInt8).toNat < (skipOf t).toNat := h
  have h1 := skipOf_toNat t
  have h2 : (t.toInt / 16) % 8 < 8 := Int.emod_lt_of_pos _ (by decide)
  simp at h
  omega

theorem headP_iff {v : Nat} {p : Str} {qs : List Str} (hp : NoC ',' p) (hqs : ∀ q ∈ qs, NoC ',' q) {r : Str}
    {pos : Position D} {time : Decimal D} {t : Int32} {h : HO.HitSound} :
    headP v (p ++ preC ',' qs) = .ok r (pos, time, t, h) ↔
      ∃ y tm ty hs qs', qs = y :: tm :: ty :: hs :: qs' ∧ r = preC ',' qs' ∧ pos = ⟨Decimal.ofStr p, Decimal.ofStr y⟩ ∧
        TimeReads v tm time ∧ parseI32 ty = .ok t ∧ HO.HitSound.parse hs = .ok h := by
  unfold headP
  simp only [bind_eq_ok, context_eq_ok, mapP_eq_ok, ret_eq_ok, commaFieldType_pieces hp]
  constructor
  · rintro ⟨_, x, ⟨hx, rfl⟩, r2, y, hy, r3, tm, ⟨d, hd, htm⟩, r4, ty, hty, r5, hs, hhs, rfl, h⟩
    cases h; cases hx
    obtain ⟨q1, qs1, rfl, hy', rfl⟩ := (commaThen_pieces hqs).1 hy
    have n1 : ∀ q ∈ qs1, NoC ',' q := fun q hq => hqs q (by simp [hq])
    obtain ⟨q2, qs2, rfl, hd', rfl⟩ := (commaThen_pieces n1).1 hd
    have n2 : ∀ q ∈ qs2, NoC ',' q := fun q hq => n1 q (by simp [hq])
    obtain ⟨q3, qs3, rfl, hty', rfl⟩ := (commaThen_pieces n2).1 hty
    have n3 : ∀ q ∈ qs3, NoC ',' q := fun q hq => n2 q (by simp [hq])
    obtain ⟨q4, qs4, rfl, hhs', rfl⟩ := (commaThen_pieces n3).1 hhs
    cases hy'; cases hd'
    exact ⟨q1, q2, q3, q4, qs4, rfl, rfl, rfl, TimingPoint.shiftUp_iff.1 htm, hty', hhs'⟩
  · rintro ⟨q1, q2, q3, q4, qs4, rfl, rfl, rfl, htm, hty, hhs⟩
    have n1 : ∀ q ∈ q2 :: q3 :: q4 :: qs4, NoC ',' q := fun q hq => hqs q (List.mem_cons_of_mem _ hq)
    have n2 : ∀ q ∈ q3 :: q4 :: qs4, NoC ',' q := fun q hq => n1 q (List.mem_cons_of_mem _ hq)
    have n3 : ∀ q ∈ q4 :: qs4, NoC ',' q := fun q hq => n2 q (List.mem_cons_of_mem _ hq)
    exact ⟨_, _, ⟨rfl, rfl⟩, _, _, (commaThen_pieces hqs).2 ⟨q1, _, rfl, rfl, rfl⟩, _, time,
      ⟨_, (commaThen_pieces n1).2 ⟨q2, _, rfl, rfl, rfl⟩, TimingPoint.shiftUp_iff.2 htm⟩, _, t,
      (commaThen_pieces n2).2 ⟨q3, _, rfl, hty, rfl⟩, _, h, (commaThen_pieces n3).2 ⟨q4, _, rfl, hhs, rfl⟩, rfl, rfl⟩

theorem parse_eq_ok {v : Nat} {s : Str} {o : HitObject D} :
    parse v s = .ok o ↔ ∃ r pos time t h, headP v s = .ok r (pos, time, t, h) ∧ finish v pos time t h r = .ok o := by
  unfold parse
  constructor
  · intro h
    split at h
    · exact ⟨_, _, _, _, _, by assumption, h⟩
    · obtain ⟨_, h⟩ := toRes_eq_ok.1 h; cases h
    · obtain ⟨_, h⟩ := toRes_eq_ok.1 h; cases h
    · cases h
  · rintro ⟨r, pos, time, t, h, h1, h2⟩
    rw [h1]; exact h2

/-- The exact meaning of a hit object line. -/
theorem parse_iff {v : Nat} {s : Str} {o : HitObject D} : parse v s = .ok o ↔ HOReads v (splitOnC ',' s) o := by
  cases hs : splitOnC ',' s with
  | nil => exact absurd hs (splitOnC_ne_nil _ _)
  | cons p qs =>
    obtain ⟨rfl, hp, hqs⟩ := splitOnC_iff.1 hs
    rw [parse_eq_ok]
    have mk : ∀ {x y tm ty hs : Str} {t : Int32} {time : Decimal D} {h : HO.HitSound} {params : HOParams D} {smp : Option HO.HitSample},
        TimeReads v tm time → parseI32 ty = .ok t → HO.HitSound.parse hs = .ok h →
        HOHead v x y tm ty hs t (⟨⟨Decimal.ofStr x, Decimal.ofStr y⟩, time, params, nthBit t 2, ⟨skipOf t⟩, h, smp⟩ : HitObject D) :=
      fun h1 h2 h3 => ⟨rfl, rfl, h1, h2, nthBit_iff, skipOf_toNat _, h3⟩
    have nb : ∀ {t : Int32} {k : Nat}, ¬ nthBit t k = true → ¬ typeBit t k := fun h h' => h (nthBit_iff.2 h')
    have bn : ∀ {t : Int32} {k : Nat}, ¬ typeBit t k → ¬ nthBit t k = true := fun h h' => h (nthBit_iff.1 h')
    constructor
    · rintro ⟨r, pos, time, t, h, hh, hf⟩
      obtain ⟨y, tm, ty, hs, qs', rfl, rfl, rfl, htm, hty, hhs⟩ := (headP_iff hp hqs).1 hh
      have n' : ∀ q ∈ qs', NoC ',' q := fun q hq => hqs q (by simp [hq])
      unfold finish at hf
      rw [skip_new] at hf
      simp only at hf
      split at hf
      · rename_i h0
        obtain ⟨o', ho, hf⟩ := Res.bind_eq_ok'.1 hf
        cases hf
        obtain ⟨x, ho⟩ := toRes_eq_ok.1 ho
        obtain ⟨_, ⟨_, ho'⟩ | ⟨ho', _⟩⟩ := (hitsampleP_lineEnd [] qs' _ _ .nil n').1 ho
        · exact .circle (mk htm hty hhs) (nthBit_iff.1 h0) rfl ho'
        · exact absurd rfl ho'
      · rename_i h0
        split at hf
        · rename_i h1
          obtain ⟨⟨sp, o'⟩, ho, hf⟩ := Res.bind_eq_ok'.1 hf
          cases hf
          obtain ⟨x, ho⟩ := toRes_eq_ok.1 ho
          obtain ⟨_, c, n, l, es, rfl, ho'⟩ := (sliderP_iff n').1 ho
          exact .slider (mk htm hty hhs) (nb h0) (nthBit_iff.1 h1) rfl ho'
        · rename_i h1
          split at hf
          · rename_i h3
            obtain ⟨⟨e, o'⟩, ho, hf⟩ := Res.bind_eq_ok'.1 hf
            cases hf
            obtain ⟨x, ho⟩ := toRes_eq_ok.1 ho
            obtain ⟨rfl, e, es, rfl, h4, h5⟩ := (spinnerP_iff n').1 ho
            exact .spinner (mk htm hty hhs) (nb h0) (nb h1) (nthBit_iff.1 h3) rfl h4 h5
          · rename_i h3
            split at hf
            · rename_i h7
              obtain ⟨⟨e, o'⟩, ho, hf⟩ := Res.bind_eq_ok'.1 hf
              cases hf
              obtain ⟨x, ho⟩ := toRes_eq_ok.1 ho
              obtain ⟨rfl, q, es, rfl, h4⟩ := holdP_iff.1 ho
              exact .hold (mk htm hty hhs) (nb h0) (nb h1) (nb h3) (nthBit_iff.1 h7) rfl h4
            · cases hf
    · intro h
      have fin : ∀ {y tm ty hs : Str} {qs' : List Str} {n : Int32}, qs = y :: tm :: ty :: hs :: qs' →
          HOHead v p y tm ty hs n o →
          (finish v o.position o.time n o.hitsound (preC ',' qs') = .ok o) →
          ∃ r pos time t h, headP v (p ++ preC ',' qs) = .ok r (pos, time, t, h) ∧ finish v pos time t h r = .ok o := by
        intro y tm ty hs qs' n e hh hf
        refine ⟨preC ',' qs', o.position, o.time, n, o.hitsound, (headP_iff hp hqs).2 ⟨y, tm, ty, hs, qs', e, rfl, ?_, hh.time,
          hh.type, hh.hitsound⟩, hf⟩
        obtain ⟨⟨x, y⟩, _⟩ := o
        rw [← hh.x, ← hh.y]
      have skp : ∀ {y tm ty hs : Str} {n : Int32}, HOHead v p y tm ty hs n o → o.comboSkip = ⟨skipOf n⟩ ∧ o.newCombo = nthBit n 2 := by
        intro y tm ty hs n hh
        constructor
        · have h1 := hh.skip
          rw [← skipOf_toNat] at h1
          have h1 : o.comboSkip.val.toNat = (skipOf n).toNat := by omega
          have h1 := UInt8.toNat_inj.1 h1
          cases hk : o.comboSkip
          rw [hk] at h1
          simpa using h1
        · rw [Bool.eq_iff_iff, nthBit_iff]; exact hh.newCombo
      cases h with
      | circle hh h0 hps hq =>
        rename_i y tm ty hs qs' n
        have n' : ∀ q ∈ qs', NoC ',' q := fun q hq => hqs q (by simp [hq])
        obtain ⟨k1, k2⟩ := skp hh
        refine fin rfl hh ?_
        unfold finish
        rw [skip_new]
        simp only [nthBit_iff.2 h0, if_true]
        refine Res.bind_eq_ok'.2 ⟨o.hitsample, toRes_eq_ok.2 ⟨[], ?_⟩, ?_⟩
        · exact (hitsampleP_lineEnd [] _ _ _ .nil n').2 ⟨rfl, .inl ⟨rfl, hq⟩⟩
        · rw [← k1, ← k2, ← hps]
      | slider hh h0 h1 hps hq =>
        rename_i y tm ty hs c m l qs' n p
        have n' : ∀ q ∈ c :: m :: l :: qs', NoC ',' q := fun q hq =>
          hqs q (List.mem_cons_of_mem _ (List.mem_cons_of_mem _ (List.mem_cons_of_mem _ (List.mem_cons_of_mem _ hq))))
        obtain ⟨k1, k2⟩ := skp hh
        refine fin rfl hh ?_
        unfold finish
        rw [skip_new]
        simp only
        rw [if_neg (bn h0), if_pos (nthBit_iff.2 h1)]
        refine Res.bind_eq_ok'.2 ⟨(p, o.hitsample), toRes_eq_ok.2 ⟨[], ?_⟩, ?_⟩
        · exact (sliderP_iff n').2 ⟨rfl, _, _, _, _, rfl, hq⟩
        · simp only; rw [← k1, ← k2, ← hps]
      | spinner hh h0 h1 h3 hps he hq =>
        rename_i y tm ty hs e qs' n et
        have n' : ∀ q ∈ e :: qs', NoC ',' q := fun q hq =>
          hqs q (List.mem_cons_of_mem _ (List.mem_cons_of_mem _ (List.mem_cons_of_mem _ (List.mem_cons_of_mem _ hq))))
        obtain ⟨k1, k2⟩ := skp hh
        refine fin rfl hh ?_
        unfold finish
        rw [skip_new]
        simp only
        rw [if_neg (bn h0), if_neg (bn h1), if_pos (nthBit_iff.2 h3)]
        refine Res.bind_eq_ok'.2 ⟨(et, o.hitsample), toRes_eq_ok.2 ⟨[], ?_⟩, ?_⟩
        · exact (spinnerP_iff n').2 ⟨rfl, _, _, rfl, he, hq⟩
        · simp only; rw [← k1, ← k2, ← hps]
      | hold hh h0 h1 h3 h7 hps hq =>
        rename_i y tm ty hs q qs' n et
        obtain ⟨k1, k2⟩ := skp hh
        refine fin rfl hh ?_
        unfold finish
        rw [skip_new]
        simp only
        rw [if_neg (bn h0), if_neg (bn h1), if_neg (bn h3), if_pos (nthBit_iff.2 h7)]
        refine Res.bind_eq_ok'.2 ⟨(et, o.hitsample), toRes_eq_ok.2 ⟨[], ?_⟩, ?_⟩
        · exact holdP_iff.2 ⟨rfl, _, _, rfl, hq⟩
        · simp only; rw [← k1, ← k2, ← hps]

end HitObject
end Osu
