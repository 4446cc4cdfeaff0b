/-
Lemmas on timing points: the exact meaning of a line, printing, panic freedom.
-/
import Verif.Spec.TimingPoints
import Verif.Proof.Ctx
import Verif.Proof.Lines
import Verif.Proof.Fields

namespace Osu
open Parser

theorem splitOnC_cons_iff {c : Char} {s p q : Str} {qs : List Str} :
    splitOnC c s = p :: q :: qs ↔
      ∃ s', s = p ++ c :: s' ∧ AllC (fun d => !(d == c)) p ∧ splitOnC c s' = q :: qs := by
  constructor
  · intro h
    have hj := join_splitOnC c s
    have hc := splitOnC_chars c s
    rw [h] at hj hc
    refine ⟨join [c] (q :: qs), ?_, hc p (by simp), ?_⟩
    · rw [← hj, join_cons_cons]; simp
    · exact splitOnC_join (by simp) fun x hx => hc x (by simp at hx ⊢; exact .inr hx)
  · rintro ⟨s', rfl, h1, h2⟩
    rw [splitOnC_append h1, h2]

theorem splitOnC_single_iff {c : Char} {s p : Str} :
    splitOnC c s = [p] ↔ s = p ∧ AllC (fun d => !(d == c)) p := by
  constructor
  · intro h
    have hj := join_splitOnC c s
    have hc := splitOnC_chars c s
    rw [h] at hj hc
    exact ⟨hj.symm, hc p (by simp)⟩
  · rintro ⟨rfl, h⟩; exact splitOnC_single h

theorem noComma_of_num {s : Str} (h : AllC isNumChar s) : NoComma s :=
  h.mono fun c hc => by
    have : c ≠ ',' := by rintro rfl; revert hc; decide
    simpa using this

theorem comma_not_num {p s : Str} {ε α : Type} {f : Str → Res ε α} (hf : ∀ s a, f s = .ok a → AllC isNumChar s) {a : α}
    (h : f (p ++ ',' :: s) = .ok a) : False := by
  have := hf _ _ h ',' (by simp)
  revert this; decide

namespace TP

theorem SampleSet.parse_chars {s : Str} {a} (h : SampleSet.parse s = .ok a) : AllC isNumChar s := by
  obtain ⟨n, h, _⟩ := Res.bind_eq_ok.1 h; exact (parseI32_chars h).2
theorem SampleIndex.parse_chars {s : Str} {a} (h : SampleIndex.parse s = .ok a) : AllC isNumChar s := by
  obtain ⟨n, h, _⟩ := Res.bind_eq_ok.1 h; exact (parseU32_chars h).2
theorem Volume.parse_chars {s : Str} {a} (h : Volume.parse s = .ok a) : AllC isNumChar s := by
  obtain ⟨n, h, _⟩ := Res.bind_eq_ok.1 h; exact (parseI32_chars h).2
theorem Effects.parse_chars {s : Str} {a} (h : Effects.parse s = .ok a) : AllC isNumChar s := by
  obtain ⟨n, h, _⟩ := Res.bind_eq_ok.1 h; exact (parseU32_chars h).2

theorem SampleSet.parse_no_panic (s : Str) : SampleSet.parse s ≠ .panic :=
  Res.bind_no_panic (parseI32_no_panic s) fun _ => nofun
theorem SampleIndex.parse_no_panic (s : Str) : SampleIndex.parse s ≠ .panic :=
  Res.bind_no_panic (parseU32_no_panic s) fun _ => nofun
theorem Volume.parse_no_panic (s : Str) : Volume.parse s ≠ .panic :=
  Res.bind_no_panic (parseI32_no_panic s) fun _ => nofun
theorem Effects.parse_no_panic (s : Str) : Effects.parse s ≠ .panic :=
  Res.bind_no_panic (parseU32_no_panic s) fun _ => nofun

end TP

theorem restType_comma_err {γ ε α : Type} {f : Str → Res ε α} (hn : ∀ s, f s ≠ .panic)
    (hf : ∀ s a, f s = .ok a → AllC isNumChar s) {p s : Str} :
    ∃ e, (restType f : Parser γ α) (p ++ ',' :: s) = .error e := by
  obtain ⟨e, h⟩ := err_of_char hn hf (c := ',') (s := p ++ ',' :: s) (by simp) (by decide)
  exact restType_err h

namespace TimingPoint
variable {D : Type} [DecLib D]

theorem tailP_iff {v : Nat} {s r : Str} {u : Option Bool} {e : Option TP.Effects} :
    tailP v s = .ok r (u, e) ↔ r = [] ∧
      ((v ≤ 5 ∧ e = none ∧ ∃ x, parseZeroOneBool s = .ok x ∧ u = some x) ∨
       (∃ f g x ef, s = f ++ ',' :: g ∧ NoComma f ∧ parseZeroOneBool f = .ok x ∧ u = some x ∧
          TP.Effects.parse g = .ok ef ∧ e = some ef)) := by
  unfold tailP
  simp only [alt_cons_eq_ok, alt_nil_eq_ok, map_eq_ok, preceded_eq_ok, guardP_eq_ok, context_eq_ok, bind_eq_ok,
    ret_eq_ok, mapRes_eq_ok, rest_eq_ok, commaField_eq_ok, comma_eq_ok, restType_eq_ok, decide_eq_true_eq]
  constructor
  · rintro (⟨x, ⟨_, _, ⟨hv, rfl⟩, _, ⟨rfl, rfl⟩, hx⟩, h⟩ | ⟨_, ⟨r1, x, ⟨f, ⟨rfl, hf, _⟩, hx⟩, r2, ef, ⟨_, _, ⟨rfl, _⟩, rfl, he⟩, rfl, h⟩ | ⟨_, h⟩⟩)
    · cases h; exact ⟨rfl, .inl ⟨hv, rfl, x, hx, rfl⟩⟩
    · cases h; exact ⟨rfl, .inr ⟨f, _, x, ef, rfl, hf, hx, rfl, he, rfl⟩⟩
    · exact h.elim
  · rintro ⟨rfl, ⟨hv, rfl, x, hx, rfl⟩ | ⟨f, g, x, ef, rfl, hf, hx, rfl, he, rfl⟩⟩
    · exact .inl ⟨x, ⟨s, (), ⟨hv, rfl⟩, s, ⟨rfl, rfl⟩, hx⟩, rfl⟩
    · refine .inr ⟨?_, .inl ⟨_, x, ⟨f, ⟨rfl, hf, .cons⟩, hx⟩, _, ef, ⟨_, _, ⟨rfl, rfl⟩, rfl, he⟩, rfl, rfl⟩⟩
      refine map_err ?_
      by_cases hv : v ≤ 5
      · exact preceded_err' (a := ()) (guardP_eq_ok.2 ⟨by simpa using hv, rfl⟩)
          (context_err (restType_comma_err parseZeroOneBool_no_panic (fun s a h => parseZeroOneBool_chars h)))
      · exact preceded_err (guardP_err (by simpa using hv))

theorem volumeP_iff {v : Nat} {s r : Str} {vol : TP.Volume} {u : Option Bool} {e : Option TP.Effects} :
    volumeP v s = .ok r (vol, u, e) ↔
      (r = [] ∧ TP.Volume.parse s = .ok vol ∧ u = none ∧ e = none) ∨
      (5 ≤ v ∧ ∃ f g, s = f ++ ',' :: g ∧ NoComma f ∧ TP.Volume.parse f = .ok vol ∧ tailP v g = .ok r (u, e)) := by
  unfold volumeP
  by_cases hv : v ≤ 4
  · -- the first alternative is cut
    have : (∃ e, ((preceded (guardP (γ := TPErr) (decide (v ≤ 4)))
        (context TPErr.invalidVolume (cut (restType TP.Volume.parse)))).map
        fun v => (v, (none : Option Bool), (none : Option TP.Effects))) s = .error e) → False := by
      rintro ⟨e, h⟩
      unfold map preceded at h
      rw [Parser.bind_ok (a := ()) (guardP_eq_ok.2 ⟨by simpa using hv, rfl⟩)] at h
      unfold context cut at h
      cases hr : (restType TP.Volume.parse : Parser TPErr _) s <;> simp only [hr] at h <;> cases h
    rw [alt_cons_eq_ok]
    constructor
    · rintro (h | ⟨h, _⟩)
      · simp only [map_eq_ok, preceded_eq_ok, guardP_eq_ok, context_eq_ok, cut_eq_ok, restType_eq_ok] at h
        obtain ⟨x, ⟨_, _, ⟨_, rfl⟩, rfl, hx⟩, h⟩ := h
        cases h
        exact .inl ⟨rfl, hx, rfl, rfl⟩
      · exact (this h).elim
    · rintro (⟨rfl, hx, rfl, rfl⟩ | ⟨h, _⟩)
      · left
        simp only [map_eq_ok, preceded_eq_ok, guardP_eq_ok, context_eq_ok, cut_eq_ok, restType_eq_ok]
        exact ⟨vol, ⟨s, (), ⟨by simpa using hv, rfl⟩, trivial, hx⟩, rfl⟩
      · omega
  · have h1 : ∀ s, ∃ e, ((preceded (guardP (γ := TPErr) (decide (v ≤ 4)))
        (context TPErr.invalidVolume (cut (restType TP.Volume.parse)))).map
        fun v => (v, (none : Option Bool), (none : Option TP.Effects))) s = .error e :=
      fun s => map_err (preceded_err (guardP_err (by simpa using hv)))
    simp only [alt_cons_eq_ok, alt_nil_eq_ok, h1, true_and]
    simp only [map_eq_ok, preceded_eq_ok, guardP_eq_ok, context_eq_ok, bind_eq_ok, ret_eq_ok, comma_eq_ok,
      restType_eq_ok, commaFieldType_eq_ok, decide_eq_true_eq, hv, false_and, and_false, exists_false, false_or]
    constructor
    · rintro (⟨x, ⟨rfl, hx⟩, h⟩ | ⟨_, ⟨r1, x, ⟨f, rfl, hf, _, hx⟩, r2, ⟨u', e'⟩, ⟨_, _, ⟨rfl, _⟩, ht⟩, rfl, h⟩⟩)
      · cases h; exact .inl ⟨rfl, hx, rfl, rfl⟩
      · cases h; exact .inr ⟨by omega, f, _, rfl, hf, hx, ht⟩
      · contradiction
    · rintro (⟨rfl, hx, rfl, rfl⟩ | ⟨_, f, g, rfl, hf, hx, ht⟩)
      · exact .inl ⟨vol, ⟨rfl, hx⟩, rfl⟩
      · refine .inr ⟨map_err (context_err (restType_comma_err TP.Volume.parse_no_panic
          (fun s a h => TP.Volume.parse_chars h))), .inl ⟨_, vol, ⟨f, rfl, hf, .cons, hx⟩, _, (u, e), ⟨_, _, ⟨rfl, rfl⟩, ht⟩, rfl, rfl⟩⟩

theorem indexP_iff {v : Nat} {s r : Str} {i : TP.SampleIndex} {t : TP.Volume × Option Bool × Option TP.Effects} :
    indexP v s = .ok r (i, t) ↔
      (v ≤ 4 ∧ r = [] ∧ TP.SampleIndex.parse s = .ok i ∧ t = (⟨100⟩, none, none)) ∨
      (∃ f g, s = f ++ ',' :: g ∧ NoComma f ∧ TP.SampleIndex.parse f = .ok i ∧ volumeP v g = .ok r t) := by
  unfold indexP
  simp only [alt_cons_eq_ok, alt_nil_eq_ok]
  simp only [map_eq_ok, preceded_eq_ok, guardP_eq_ok, context_eq_ok, bind_eq_ok, ret_eq_ok, comma_eq_ok,
      restType_eq_ok, commaFieldType_eq_ok, decide_eq_true_eq]
  constructor
  · rintro (⟨x, ⟨_, _, ⟨hv, rfl⟩, rfl, hx⟩, h⟩ | ⟨_, ⟨r1, x, ⟨f, rfl, hf, _, hx⟩, r2, t', ⟨_, _, ⟨rfl, _⟩, ht⟩, rfl, h⟩ | ⟨_, h⟩⟩)
    · cases h; exact .inl ⟨hv, rfl, hx, rfl⟩
    · cases h; exact .inr ⟨f, _, rfl, hf, hx, ht⟩
    · exact h.elim
  · rintro (⟨hv, rfl, hx, rfl⟩ | ⟨f, g, rfl, hf, hx, ht⟩)
    · exact .inl ⟨i, ⟨s, (), ⟨hv, rfl⟩, rfl, hx⟩, rfl⟩
    · refine .inr ⟨map_err ?_, .inl ⟨_, i, ⟨f, rfl, hf, .cons, hx⟩, _, t, ⟨_, _, ⟨rfl, rfl⟩, ht⟩, rfl, rfl⟩⟩
      by_cases hv : v ≤ 4
      · exact preceded_err' (a := ()) (guardP_eq_ok.2 ⟨by simpa using hv, rfl⟩)
          (context_err (restType_comma_err TP.SampleIndex.parse_no_panic (fun s a h => TP.SampleIndex.parse_chars h)))
      · exact preceded_err (guardP_err (by simpa using hv))

theorem bodyP_iff {v : Nat} {s r : Str} {b : Decimal D} {m : Int32} {ss : TP.SampleSet} {i : TP.SampleIndex}
    {t : TP.Volume × Option Bool × Option TP.Effects} :
    bodyP v s = .ok r (b, m, ss, i, t) ↔
      (v ≤ 3 ∧ r = [] ∧ b = Decimal.ofStr s ∧ m = 4 ∧ ss = .normal ∧ i = .index 1 ∧ t = (⟨100⟩, none, none)) ∨
      (4 ≤ v ∧ ∃ f1 f2 f3 g, s = f1 ++ ',' :: (f2 ++ ',' :: (f3 ++ ',' :: g)) ∧ NoComma f1 ∧ NoComma f2 ∧ NoComma f3 ∧
        b = Decimal.ofStr f1 ∧ parseI32 f2 = .ok m ∧ TP.SampleSet.parse f3 = .ok ss ∧ indexP v g = .ok r (i, t)) := by
  unfold bodyP
  simp only [alt_cons_eq_ok, alt_nil_eq_ok]
  by_cases hv : v ≤ 3
  · have hok : ((preceded (guardP (γ := TPErr) (decide (v ≤ 3))) (restType Decimal.parse)).map
      fun b : Decimal D => (b, (4 : Int32), TP.SampleSet.normal, sampleIndexFallback, volumeFallback, (none : Option Bool),
        (none : Option TP.Effects))) s = .ok [] (Decimal.ofStr s, 4, .normal, .index 1, ⟨100⟩, none, none) := by
      simp only [map_eq_ok, preceded_eq_ok, guardP_eq_ok, restType_eq_ok]
      exact ⟨_, ⟨s, (), ⟨by simpa using hv, rfl⟩, trivial, rfl⟩, rfl⟩
    rw [hok]
    constructor
    · rintro (h | ⟨⟨_, h⟩, _⟩)
      · cases h; exact .inl ⟨hv, rfl, rfl, rfl, rfl, rfl, rfl⟩
      · cases h
    · rintro (⟨_, rfl, rfl, rfl, rfl, rfl, rfl⟩ | ⟨h, _⟩)
      · exact .inl rfl
      · omega
  · have he : ∃ e, ((preceded (guardP (γ := TPErr) (decide (v ≤ 3))) (restType Decimal.parse)).map
      fun b : Decimal D => (b, (4 : Int32), TP.SampleSet.normal, sampleIndexFallback, volumeFallback, (none : Option Bool),
        (none : Option TP.Effects))) s = .error e := map_err (preceded_err (guardP_err (by simpa using hv)))
    obtain ⟨e, he⟩ := he
    simp only [he, reduceCtorEq, false_or, PRes.error.injEq, exists_eq', true_and]
    simp only [preceded_eq_ok, context_eq_ok, bind_eq_ok, ret_eq_ok, comma_eq_ok, commaFieldType_eq_ok]
    constructor
    · rintro (⟨r1, b', ⟨f1, rfl, h1, _, hb⟩, _, m', ⟨_, _, ⟨rfl, _⟩, f2, rfl, h2, _, hm⟩, _, ss', ⟨_, _, ⟨rfl, _⟩, f3, rfl, h3, _, hss⟩,
        _, ⟨i', t'⟩, ⟨_, _, ⟨rfl, _⟩, hi⟩, rfl, h⟩ | ⟨_, h⟩)
      · cases h
        cases hb
        exact .inr ⟨by omega, f1, f2, f3, _, rfl, h1, h2, h3, rfl, hm, hss, hi⟩
      · exact h.elim
    · rintro (⟨h, _⟩ | ⟨_, f1, f2, f3, g, rfl, h1, h2, h3, rfl, hm, hss, hi⟩)
      · omega
      · exact .inl ⟨_, _, ⟨f1, rfl, h1, .cons, rfl⟩, _, m, ⟨_, _, ⟨rfl, rfl⟩, f2, rfl, h2, .cons, hm⟩, _, ss,
          ⟨_, _, ⟨rfl, rfl⟩, f3, rfl, h3, .cons, hss⟩, _, (i, t), ⟨_, _, ⟨rfl, rfl⟩, hi⟩, rfl, rfl⟩

theorem shiftUp_iff {v : Nat} {p : Str} {t : Decimal D} :
    Decimal.shiftUp v (Decimal.ofStr p) = some t ↔ TimeReads v p t := by
  unfold TimeReads Decimal.ofStr
  cases h : (DecLib.parse p : Option D) with
  | none => simp [Decimal.shiftUp, eq_comm]
  | some d =>
    simp only [Decimal.shiftUp]
    split
    · simp only [Option.map_eq_some_iff]
      exact ⟨fun ⟨a, h1, h2⟩ => ⟨a, h1, h2.symm⟩, fun ⟨a, h1, h2⟩ => ⟨a, h1, h2.symm⟩⟩
    · simp [eq_comm]

/-- The exact meaning of a line. -/
theorem parse_iff {v : Nat} {s : Str} {t : TimingPoint D} : parse v s = .ok t ↔ TPReads v (splitOnC ',' s) t := by
  unfold parse parser
  simp only [toRes_eq_ok, bind_eq_ok, mapP_eq_ok, context_eq_ok, commaFieldType_eq_ok, preceded_eq_ok, comma_eq_ok, ret_eq_ok]
  constructor
  · rintro ⟨r, r1, time, ⟨d, ⟨p, rfl, hp, _, hd⟩, ht⟩, r2, ⟨b, m, ss, i, vol, u, e⟩, ⟨r3, _, ⟨rfl, _⟩, hb⟩, _, rfl⟩
    cases hd
    rw [shiftUp_iff] at ht
    rw [splitOnC_append hp]
    rcases bodyP_iff.1 hb with ⟨hv, _, rfl, rfl, rfl, rfl, h⟩ | ⟨hv, f1, f2, f3, g, rfl, h1, h2, h3, rfl, hm, hss, hi⟩
    · cases h
      have hj := join_splitOnC ',' r3
      cases hs : splitOnC ',' r3 with
      | nil => exact absurd hs (splitOnC_ne_nil _ _)
      | cons q qs =>
        rw [hs] at hj
        have := TPReads.old (D := D) (v := v) (p := p) (q := q) (qs := qs) hv ht
        rw [hj] at this
        exact this
    · rw [splitOnC_append h1, splitOnC_append h2, splitOnC_append h3]
      have head : ∀ si, TP.SampleIndex.parse si = .ok i →
          TPHead v p f1 f2 f3 si (⟨time, Decimal.ofStr f1, m, ss, i, vol, u, e⟩ : TimingPoint D) :=
        fun si hsi => ⟨ht, rfl, hm, hss, hsi⟩
      rcases indexP_iff.1 hi with ⟨hv', _, hsi, h⟩ | ⟨si, g', rfl, h4, hsi, hvol⟩
      · cases h
        rw [splitOnC_single (noComma_of_num (TP.SampleIndex.parse_chars hsi))]
        exact .four (by omega) (head _ hsi) rfl rfl rfl
      · rw [splitOnC_append h4]
        rcases volumeP_iff.1 hvol with ⟨_, hvol', rfl, rfl⟩ | ⟨hv', vo, g2, rfl, h5, hvol', htl⟩
        · rw [splitOnC_single (noComma_of_num (TP.Volume.parse_chars hvol'))]
          exact .six hv (head _ hsi) hvol' rfl rfl
        · rw [splitOnC_append h5]
          rcases tailP_iff.1 htl with ⟨_, ⟨hv'', rfl, x, hx, rfl⟩ | ⟨f, g3, x, ef, rfl, h6, hx, rfl, he, rfl⟩⟩
          · rw [splitOnC_single (noComma_of_num (parseZeroOneBool_chars hx))]
            exact .seven (by omega) (head _ hsi) hvol' hx rfl rfl
          · rw [splitOnC_append h6, splitOnC_single (noComma_of_num (TP.Effects.parse_chars he))]
            exact .eight hv' (head _ hsi) hvol' hx rfl he rfl
  · intro h
    generalize hps : splitOnC ',' s = ps at h
    have fin : ∀ {p s' : Str}, s = p ++ ',' :: s' → NoComma p → TimeReads v p t.time →
        (∃ r, bodyP v s' = .ok r (t.beatLength, t.meter, t.sampleSet, t.sampleIndex, t.volume, t.uninherited, t.effects)) →
        ∃ r r1 a, (∃ a_1, (∃ t, s = t ++ r1 ∧ NoComma t ∧ AtComma r1 ∧ Decimal.parse t = Res.ok a_1) ∧
            Decimal.shiftUp v a_1 = some a) ∧
          ∃ r1_1 a_1, (∃ r1_2 a, (r1 = ',' :: r1_2 ∧ a = [',']) ∧ bodyP v r1_2 = PRes.ok r1_1 a_1) ∧
            r = r1_1 ∧ t = ⟨a, a_1.1, a_1.2.1, a_1.2.2.1, a_1.2.2.2.1, a_1.2.2.2.2.1, a_1.2.2.2.2.2.1, a_1.2.2.2.2.2.2⟩ := by
      rintro p s' rfl hp ht ⟨r, hb⟩
      exact ⟨r, _, t.time, ⟨_, ⟨p, rfl, hp, .cons, rfl⟩, shiftUp_iff.2 ht⟩, r, _, ⟨_, _, ⟨rfl, rfl⟩, hb⟩, rfl, rfl⟩
    have hd : ∀ {p b m ss si : Str} {s' : Str} {g : Str},
        TPHead v p b m ss si t → s' = b ++ ',' :: (m ++ ',' :: (ss ++ ',' :: g)) → NoComma b → NoComma m → NoComma ss → 4 ≤ v →
        (∃ r, indexP v g = .ok r (t.sampleIndex, t.volume, t.uninherited, t.effects)) →
        ∃ r, bodyP v s' = .ok r (t.beatLength, t.meter, t.sampleSet, t.sampleIndex, t.volume, t.uninherited, t.effects) := by
      rintro p b m ss si s' g h rfl h1 h2 h3 hv ⟨r, hi⟩
      exact ⟨r, bodyP_iff.2 (.inr ⟨hv, b, m, ss, g, rfl, h1, h2, h3, h.beatLength, h.meter, h.sampleSet, hi⟩)⟩
    cases h with
    | old hv ht =>
      obtain ⟨s', rfl, hp, hq⟩ := splitOnC_cons_iff.1 hps
      refine fin rfl hp ht ⟨[], ?_⟩
      have := join_splitOnC ',' s'
      rw [hq] at this
      rw [this]
      exact bodyP_iff.2 (.inl ⟨hv, rfl, rfl, rfl, rfl, rfl, rfl⟩)
    | four hv h hvol hu he =>
      obtain ⟨s1, rfl, hp, hq⟩ := splitOnC_cons_iff.1 hps
      obtain ⟨s2, rfl, h1, hq⟩ := splitOnC_cons_iff.1 hq
      obtain ⟨s3, rfl, h2, hq⟩ := splitOnC_cons_iff.1 hq
      obtain ⟨s4, rfl, h3, hq⟩ := splitOnC_cons_iff.1 hq
      obtain ⟨rfl, h4⟩ := splitOnC_single_iff.1 hq
      refine fin rfl hp h.time (hd h rfl h1 h2 h3 (by omega) ⟨[], indexP_iff.2 (.inl ⟨by omega, rfl, h.sampleIndex, ?_⟩)⟩)
      rw [hvol, hu, he]
    | six hv h hvol hu he =>
      obtain ⟨s1, rfl, hp, hq⟩ := splitOnC_cons_iff.1 hps
      obtain ⟨s2, rfl, h1, hq⟩ := splitOnC_cons_iff.1 hq
      obtain ⟨s3, rfl, h2, hq⟩ := splitOnC_cons_iff.1 hq
      obtain ⟨s4, rfl, h3, hq⟩ := splitOnC_cons_iff.1 hq
      obtain ⟨s5, rfl, h4, hq⟩ := splitOnC_cons_iff.1 hq
      obtain ⟨rfl, h5⟩ := splitOnC_single_iff.1 hq
      exact fin rfl hp h.time (hd h rfl h1 h2 h3 hv ⟨[], indexP_iff.2 (.inr ⟨_, _, rfl, h4, h.sampleIndex,
        volumeP_iff.2 (.inl ⟨rfl, hvol, hu, he⟩)⟩)⟩)
    | seven hv h hvol hu hux he =>
      obtain ⟨s1, rfl, hp, hq⟩ := splitOnC_cons_iff.1 hps
      obtain ⟨s2, rfl, h1, hq⟩ := splitOnC_cons_iff.1 hq
      obtain ⟨s3, rfl, h2, hq⟩ := splitOnC_cons_iff.1 hq
      obtain ⟨s4, rfl, h3, hq⟩ := splitOnC_cons_iff.1 hq
      obtain ⟨s5, rfl, h4, hq⟩ := splitOnC_cons_iff.1 hq
      obtain ⟨s6, rfl, h5, hq⟩ := splitOnC_cons_iff.1 hq
      obtain ⟨rfl, h6⟩ := splitOnC_single_iff.1 hq
      exact fin rfl hp h.time (hd h rfl h1 h2 h3 (by omega) ⟨[], indexP_iff.2 (.inr ⟨_, _, rfl, h4, h.sampleIndex,
        volumeP_iff.2 (.inr ⟨by omega, _, _, rfl, h5, hvol, tailP_iff.2 ⟨rfl, .inl ⟨by omega, he, _, hu, hux⟩⟩⟩)⟩)⟩)
    | eight hv h hvol hu hux he hex =>
      obtain ⟨s1, rfl, hp, hq⟩ := splitOnC_cons_iff.1 hps
      obtain ⟨s2, rfl, h1, hq⟩ := splitOnC_cons_iff.1 hq
      obtain ⟨s3, rfl, h2, hq⟩ := splitOnC_cons_iff.1 hq
      obtain ⟨s4, rfl, h3, hq⟩ := splitOnC_cons_iff.1 hq
      obtain ⟨s5, rfl, h4, hq⟩ := splitOnC_cons_iff.1 hq
      obtain ⟨s6, rfl, h5, hq⟩ := splitOnC_cons_iff.1 hq
      obtain ⟨s7, rfl, h6, hq⟩ := splitOnC_cons_iff.1 hq
      obtain ⟨rfl, h7⟩ := splitOnC_single_iff.1 hq
      exact fin rfl hp h.time (hd h rfl h1 h2 h3 (by omega) ⟨[], indexP_iff.2 (.inr ⟨_, _, rfl, h4, h.sampleIndex,
        volumeP_iff.2 (.inr ⟨by omega, _, _, rfl, h5, hvol, tailP_iff.2 ⟨rfl, .inr ⟨_, _, _, _, rfl, h6, hu, hux, he, hex⟩⟩⟩)⟩)⟩)

end TimingPoint

/-! ### Printing -/

section
variable {D : Type} [DecLib D]

theorem fieldChar_dec {c : Char} (h : isDecChar c = true) : fieldChar c = true := by
  have h1 := isDecChar_ne h (d := ',') (by decide)
  have h2 := isDecChar_ne h (d := '\n') (by decide)
  have h3 := isDecChar_ne h (d := '\r') (by decide)
  simp [fieldChar, h1, h2, h3]

theorem lastChar_of_field {c : Char} (h : fieldChar c = true) : lastChar c = true := by
  simp [fieldChar, lastChar] at h ⊢; exact ⟨h.1.2, h.2⟩

theorem noComma_of_field {s : Str} (h : AllC fieldChar s) : NoComma s :=
  h.mono fun c hc => by simp [fieldChar] at hc; simpa using hc.1.1

theorem fieldC_of {cr : Bool} {c : Char} (h : fieldChar c = true) : fieldC cr c = true := by
  simp [fieldChar, fieldC] at h ⊢; exact ⟨h.1, .inr h.2⟩

theorem lastC_of {cr : Bool} {c : Char} (h : lastChar c = true) : lastC cr c = true := by
  simp [lastChar, lastC] at h ⊢; exact ⟨h.1, .inr h.2⟩

theorem fieldC_iff {cr : Bool} {c : Char} : fieldC cr c = true ↔ c ≠ ',' ∧ lastC cr c = true := by
  simp [fieldC, lastC, and_assoc]

theorem lastC_of_field {cr : Bool} {c : Char} (h : fieldC cr c = true) : lastC cr c = true := (fieldC_iff.1 h).2

theorem fieldC_dec {cr : Bool} {c : Char} (h : isDecChar c = true) : fieldC cr c = true := fieldC_of (fieldChar_dec h)

theorem wide_field {cr : Bool} {s : Str} (h : AllC fieldChar s) : AllC (fieldC cr) s := h.mono fun _ => fieldC_of

theorem wide_last {cr : Bool} {s : Str} (h : AllC lastChar s) : AllC (lastC cr) s := h.mono fun _ => lastC_of

theorem wide_all {cr : Bool} {s : Str} (h : s.all fieldChar = true) : s.all (fieldC cr) = true :=
  List.all_eq_true.2 (wide_field (List.all_eq_true.1 h))

theorem noComma_of_fieldC {cr : Bool} {s : Str} (h : AllC (fieldC cr) s) : NoComma s :=
  h.mono fun c hc => by simpa using (fieldC_iff.1 hc).1

theorem fieldC_last {cr : Bool} {s : Str} (h : AllC (fieldC cr) s) : AllC (lastC cr) s := h.mono fun _ => lastC_of_field

theorem lastC_noLF {cr : Bool} {s : Str} (h : AllC (lastC cr) s) : NoLF s := h.noLF (by cases cr <;> rfl)

theorem DecWritable.wf {f : Char → Bool} {x : Decimal D} (h : DecWritable f x) : x.WF := by
  cases x with
  | left d => exact h
  | right s => exact h.1

theorem DecWritable.chars {f : Char → Bool} (hf : ∀ c, isDecChar c = true → f c = true) {x : Decimal D}
    (h : DecWritable f x) : AllC f x.toStr := by
  cases x with
  | left d => exact fun c hc => hf c (DecLib.shw_chars _ c hc)
  | right s => exact h.2

theorem TimeWritable.print {v : Nat} {x : Decimal D} (h : TimeWritable v x) :
    ∃ p, x.toStrShifted v = some p ∧ TimeReads v p x ∧ AllC fieldChar p := by
  cases x with
  | right s =>
    obtain ⟨h1, h2⟩ := h
    exact ⟨s, rfl, by unfold TimeReads; rw [h1], h2⟩
  | left d =>
    simp only [TimeWritable] at h
    simp only [Decimal.toStrShifted]
    by_cases hv : 3 ≤ v ∧ v ≤ 4
    · rw [if_pos hv] at h
      obtain ⟨d', h1, h2, h3⟩ := h
      refine ⟨DecLib.shw d', by rw [if_pos hv, h1]; rfl, ?_, fun c hc => fieldChar_dec (DecLib.shw_chars _ c hc)⟩
      unfold TimeReads
      rw [DecLib.parse_shw h2]
      simp only [if_pos hv]
      exact ⟨d, h3, rfl⟩
    · rw [if_neg hv] at h
      refine ⟨DecLib.shw d, by rw [if_neg hv], ?_, fun c hc => fieldChar_dec (DecLib.shw_chars _ c hc)⟩
      unfold TimeReads
      rw [DecLib.parse_shw h]
      simp only [if_neg hv]

end

theorem TP.sampleSet_round {x : TP.SampleSet} (h : SampleSetNamed x) : TP.SampleSet.parse x.shw = .ok x := by
  unfold TP.SampleSet.parse TP.SampleSet.shw
  rw [parseI32_i32ToStr]
  cases x with
  | other n =>
    obtain ⟨h0, h1, h2, h3⟩ := h
    simp [Res.bind, TP.SampleSet.toInt, TP.SampleSet.ofInt, h0, h1, h2, h3]
  | _ => rfl

theorem u32_i32_str {n : UInt32} (h : n.toNat ≤ 2147483647) : i32ToStr n.toInt32 = u32ToStr n := by
  unfold i32ToStr u32ToStr
  have : n.toInt32.toInt = (n.toNat : Int) := by
    have h1 : n.toInt32.toInt = (n.toNat : Int).bmod (2 ^ 32) := by
      show n.toBitVec.toInt = _
      rw [BitVec.toInt_eq_toNat_bmod]; rfl
    rw [h1]
    exact Int.bmod_eq_of_le (by omega) (by omega)
  rw [this]
  unfold intToStr
  rw [if_neg (by omega)]; rfl

theorem TP.sampleIndex_round {x : TP.SampleIndex} (h : IndexWritable x) : TP.SampleIndex.parse x.shw = .ok x := by
  unfold TP.SampleIndex.parse TP.SampleIndex.shw
  cases x with
  | osuDefaultHitsounds => decide
  | index n =>
    simp only [TP.SampleIndex.toInt]
    rw [u32_i32_str h.2, parseU32_u32ToStr]
    simp [Res.bind, TP.SampleIndex.ofU32, h.1]

theorem TP.volume_round (x : TP.Volume) : TP.Volume.parse x.shw = .ok x := by
  unfold TP.Volume.parse TP.Volume.shw
  rw [parseI32_i32ToStr]; rfl

theorem TP.effects_round (x : TP.Effects) : TP.Effects.parse x.shw = .ok x := by
  unfold TP.Effects.parse TP.Effects.shw
  rw [parseU32_u32ToStr]; rfl

theorem fieldChar_num {s : Str} (h : AllC isNumChar s) : AllC fieldChar s :=
  h.mono fun c hc => by
    have h1 : c ≠ ',' := by rintro rfl; revert hc; decide
    have h2 : c ≠ '\n' := by rintro rfl; revert hc; decide
    have h3 : c ≠ '\r' := by rintro rfl; revert hc; decide
    simp [fieldChar, h1, h2, h3]

theorem i32_field (n : Int32) : AllC fieldChar (i32ToStr n) := fieldChar_num (parseI32_chars (parseI32_i32ToStr n)).2

theorem bool_field (b : Bool) : AllC fieldChar (boolToStr b) := by cases b <;> decide

/-- A line of at least two fields without line breaks. -/
theorem lineOK_join {p q : Str} {qs : List Str} (h : ∀ x ∈ p :: q :: qs, AllC lastChar x) :
    LineOK (join [','] (p :: q :: qs)) := by
  have hall : AllC lastChar (join [','] (p :: q :: qs)) := by
    rw [join_eq_preC]
    refine (h p (by simp)).append ?_
    have : ∀ l : List Str, (∀ x ∈ l, AllC lastChar x) → AllC lastChar (preC ',' l) := by
      intro l hl
      induction l with
      | nil => exact .nil
      | cons x l ih =>
        rw [show preC ',' (x :: l) = ',' :: (x ++ preC ',' l) from by simp [preC]]
        exact .cons (by decide) ((hl x (by simp)).append (ih fun y hy => hl y (by simp [hy])))
    exact this _ fun x hx => h x (by simp at hx ⊢; exact .inr hx)
  refine ⟨hall.noLF (by decide), hall.noEndCR (by decide), ?_⟩
  rw [nonBlank_iff, Ne, trim_eq_nil]
  intro hw
  have := hw ',' (by rw [join_cons_cons]; simp)
  revert this; decide

namespace TimingPoint
variable {D : Type} [DecLib D]

theorem round_trip {v : Nat} {t : TimingPoint D} (h : TPWritable v t) :
    ∃ s, shw v t = some s ∧ LineOK s ∧ parse v s = .ok (tpDefaults v t) := by
  obtain ⟨p, hp1, hp2, hp3⟩ := h.time.print
  unfold shw
  rw [hp1, Option.map_some]
  have hps := parseI32_i32ToStr t.meter
  have L := @lastChar_of_field
  by_cases h3 : v ≤ 3
  · have hb := h.beatLength
    rw [if_pos h3] at hb
    have hbc := hb.chars (fun c hc => lastChar_of_field (fieldChar_dec hc))
    refine ⟨_, rfl, ?_, ?_⟩
    · simp only [tailFields, if_neg (show ¬ v > 3 by omega), if_neg (show ¬ v > 4 by omega)]
      apply lineOK_join
      intro x hx
      simp at hx
      rcases hx with rfl | rfl
      · exact hp3.mono fun c hc => L hc
      · exact hbc
    · simp only [tailFields, if_neg (show ¬ v > 3 by omega), if_neg (show ¬ v > 4 by omega), List.append_nil]
      rw [parse_iff]
      have hcat : join [','] [p, t.beatLength.toStr] = p ++ ',' :: t.beatLength.toStr := by
        simp [join]
      rw [hcat, splitOnC_append (noComma_of_field hp3)]
      cases hs : splitOnC ',' t.beatLength.toStr with
      | nil => exact absurd hs (splitOnC_ne_nil _ _)
      | cons q qs =>
        have hj := join_splitOnC ',' t.beatLength.toStr
        rw [hs] at hj
        have := TPReads.old (D := D) (v := v) (p := p) (q := q) (qs := qs) h3 hp2
        rw [hj, Decimal.ofStr_toStr hb.wf] at this
        unfold tpDefaults
        rw [if_pos h3]
        exact this
  · have hb := h.beatLength
    rw [if_neg h3] at hb
    have hbc := hb.chars (fun c hc => fieldChar_dec hc)
    have hss := TP.sampleSet_round (h.named (by omega))
    have hsi := TP.sampleIndex_round (h.index (by omega))
    have hssc := fieldChar_num (TP.SampleSet.parse_chars hss)
    have hsic := fieldChar_num (TP.SampleIndex.parse_chars hsi)
    have hvol := TP.volume_round t.volume
    have hvc := fieldChar_num (TP.Volume.parse_chars hvol)
    have head : ∀ t' : TimingPoint D, t'.time = t.time → t'.beatLength = t.beatLength → t'.meter = t.meter →
        t'.sampleSet = t.sampleSet → t'.sampleIndex = t.sampleIndex →
        TPHead v p t.beatLength.toStr (i32ToStr t.meter) t.sampleSet.shw t.sampleIndex.shw t' := by
      intro t' h1 h2 h3 h4 h5
      refine ⟨by rw [h1]; exact hp2, by rw [h2, Decimal.ofStr_toStr hb.wf], by rw [h3]; exact hps, by rw [h4]; exact hss,
        by rw [h5]; exact hsi⟩
    have done : ∀ (xs : List Str) (t' : TimingPoint D), (∀ x ∈ xs, AllC fieldChar x) →
        TPReads v ([p, t.beatLength.toStr, i32ToStr t.meter, t.sampleSet.shw, t.sampleIndex.shw] ++ xs) t' →
        LineOK (join [','] ([p, t.beatLength.toStr, i32ToStr t.meter, t.sampleSet.shw, t.sampleIndex.shw] ++ xs)) ∧
        parse v (join [','] ([p, t.beatLength.toStr, i32ToStr t.meter, t.sampleSet.shw, t.sampleIndex.shw] ++ xs)) = .ok t' := by
      intro xs t' hxs hr
      have hall : ∀ x ∈ [p, t.beatLength.toStr, i32ToStr t.meter, t.sampleSet.shw, t.sampleIndex.shw] ++ xs,
          AllC fieldChar x := by
        intro x hx
        rcases List.mem_append.1 hx with hx | hx
        · simp at hx
          rcases hx with rfl | rfl | rfl | rfl | rfl
          · exact hp3
          · exact hbc
          · exact i32_field _
          · exact hssc
          · exact hsic
        · exact hxs x hx
      refine ⟨lineOK_join fun x hx => (hall x hx).mono fun c hc => L hc, ?_⟩
      rw [parse_iff, splitOnC_join (by simp) fun x hx => noComma_of_field (hall x hx)]
      exact hr
    by_cases h4 : v = 4
    · refine ⟨_, rfl, ?_⟩
      have e : p :: tailFields v t = [p, t.beatLength.toStr, i32ToStr t.meter, t.sampleSet.shw, t.sampleIndex.shw] ++ [] := by
        simp [tailFields, h4]
      rw [e]
      refine done [] _ (by simp) (.four h4 (head _ ?_ ?_ ?_ ?_ ?_) ?_ ?_ ?_)
      all_goals simp [tpDefaults, h4]
    · have hd : tpDefaults v t = t := by unfold tpDefaults; rw [if_neg h3, if_neg h4]
      rw [hd]
      refine ⟨_, rfl, ?_⟩
      have g3 : v > 3 := by omega
      have g4 : v > 4 := by omega
      have hh := head t rfl rfl rfl rfl rfl
      cases hu : t.uninherited with
      | none =>
        have he := h.tail5 (by omega) hu
        have e : p :: tailFields v t = [p, t.beatLength.toStr, i32ToStr t.meter, t.sampleSet.shw, t.sampleIndex.shw] ++ [t.volume.shw] := by
          simp [tailFields, hu, he, g3, g4]
        rw [e]
        refine done _ _ ?_ (.six (by omega) hh hvol hu he)
        intro x hx; simp at hx; subst hx; exact hvc
      | some u =>
        cases he : t.effects with
        | none =>
          have h5 : v = 5 := by
            apply Classical.byContradiction
            intro h5
            have := h.tail6 (by omega) he
            rw [hu] at this; cases this
          have e : p :: tailFields v t = [p, t.beatLength.toStr, i32ToStr t.meter, t.sampleSet.shw, t.sampleIndex.shw] ++ 
              [t.volume.shw, boolToStr u] := by simp [tailFields, hu, he, g3, g4]
          rw [e]
          refine done _ _ ?_ (.seven h5 hh hvol (parseZeroOneBool_boolToStr u) hu he)
          intro x hx; simp at hx; rcases hx with rfl | rfl
          · exact hvc
          · exact bool_field _
        | some ef =>
          have e : p :: tailFields v t = [p, t.beatLength.toStr, i32ToStr t.meter, t.sampleSet.shw, t.sampleIndex.shw] ++ 
              [t.volume.shw, boolToStr u, ef.shw] := by simp [tailFields, hu, he, g3, g4]
          rw [e]
          refine done _ _ ?_ (.eight (by omega) hh hvol (parseZeroOneBool_boolToStr u) hu (TP.effects_round ef) he)
          intro x hx; simp at hx; rcases hx with rfl | rfl | rfl
          · exact hvc
          · exact bool_field _
          · exact fieldChar_num (TP.Effects.parse_chars (TP.effects_round ef))

/-! ### Panic -/

theorem tailP_good {P} (hP : Upward P) (v : Nat) : Good P (tailP v) := by
  refine Good.alt (ps := [_]) ?_ ?_
  · intro p hp
    simp at hp
    subst hp
    exact ((SafeF.guardP _).preceded hP ((Good.rest.toSafe.mapRes parseZeroOneBool_no_panic).context _).toSafeF).map _
  · exact ((Good.commaField.toSafe.mapRes parseZeroOneBool_no_panic).context _).bind hP fun u =>
      ((SafeF.comma.toSafe.context _).preceded hP ((SafeF.restType TP.Effects.parse_no_panic).toSafe.context _)).bind hP
        fun e => .ret _

theorem volumeP_good {P} (hP : Upward P) (v : Nat) : Good P (volumeP v) := by
  have hr : SafeF P (restType TP.Volume.parse : Parser TPErr _) := .restType TP.Volume.parse_no_panic
  refine Good.alt (ps := [_, _]) ?_ ?_
  · intro p hp
    simp at hp
    rcases hp with rfl | rfl
    · exact ((SafeF.guardP _).preceded hP (hr.toSafe.cut.context _).toSafeF).map _
    · exact (hr.toSafe.context _).toSafeF.map _
  · exact ((SafeF.commaFieldType TP.Volume.parse_no_panic).toSafe.context _).bind hP fun u =>
      ((SafeF.comma.toSafe.context _).preceded hP (tailP_good hP v)).bind hP fun e => .ret _

theorem indexP_good {P} (hP : Upward P) (v : Nat) : Good P (indexP v) := by
  refine Good.alt (ps := [_]) ?_ ?_
  · intro p hp
    simp at hp
    subst hp
    exact ((SafeF.guardP _).preceded hP ((SafeF.restType TP.SampleIndex.parse_no_panic).toSafe.context _).toSafeF).map _
  · exact ((SafeF.commaFieldType TP.SampleIndex.parse_no_panic).toSafe.context _).bind hP fun u =>
      ((SafeF.comma.toSafe.context _).preceded hP (volumeP_good hP v)).bind hP fun e => .ret _

theorem bodyP_good {P} (hP : Upward P) (v : Nat) : Good P (bodyP v : Parser TPErr (Decimal D × _)) := by
  have hd : ∀ s, (Decimal.parse s : Res Unit (Decimal D)) ≠ .panic := fun s => nofun
  refine Good.alt (ps := [_]) ?_ ?_
  · intro p hp
    simp at hp
    subst hp
    exact ((SafeF.guardP _).preceded hP (SafeF.restType hd)).map _
  · refine (Good.mapRes_total (Good.commaField) (fun a => ⟨_, rfl⟩)).bind hP fun b => ?_
    refine (Good.commaThen hP parseI32_no_panic).bind hP fun m => ?_
    refine (Good.commaThen hP TP.SampleSet.parse_no_panic).bind hP fun ss => ?_
    exact ((SafeF.comma.toSafe.context _).preceded hP (indexP_good hP v)).bind hP fun t => .ret _

theorem shiftUp_none {v : Nat} {p : Str} :
    Decimal.shiftUp v (Decimal.ofStr p : Decimal D) = none ↔ TimeOverflows D v p := by
  unfold TimeOverflows Decimal.ofStr
  cases h : (DecLib.parse p : Option D) with
  | none => simp [Decimal.shiftUp]
  | some d =>
    simp only [Decimal.shiftUp]
    split
    · rename_i hv; simp [hv]
    · rename_i hv
      simp only [reduceCtorEq, false_iff]
      rintro ⟨h1, h2, _⟩; exact hv ⟨h1, h2⟩

theorem commaField_split (s : Str) : ∃ r, (commaField : Parser TPErr Str) s = .ok r ((splitOnC ',' s).headD []) := by
  cases hs : splitOnC ',' s with
  | nil => exact absurd hs (splitOnC_ne_nil _ _)
  | cons p l =>
    cases l with
    | nil =>
      obtain ⟨rfl, hp⟩ := splitOnC_single_iff.1 hs
      exact ⟨[], commaField_eq_ok.2 ⟨by simp, hp, .nil⟩⟩
    | cons q qs =>
      obtain ⟨s', rfl, hp, _⟩ := splitOnC_cons_iff.1 hs
      exact ⟨_, commaField_eq_ok.2 ⟨rfl, hp, .cons⟩⟩

/-- The exact panic condition. -/
theorem parse_panic {v : Nat} {s : Str} :
    (parse v s : Res TPErr (TimingPoint D)) = .panic ↔ TimeOverflows D v ((splitOnC ',' s).headD []) := by
  obtain ⟨r, hr⟩ := commaField_split s
  rw [← shiftUp_none]
  unfold parse parser
  have hctx : (context TPErr.invalidTime (commaFieldType (Decimal.parse (D := D)))) s =
      .ok r (Decimal.ofStr ((splitOnC ',' s).headD [])) := by
    rw [context_eq_ok]
    unfold commaFieldType
    rw [mapRes_eq_ok]
    exact ⟨_, hr, rfl⟩
  cases hsh : Decimal.shiftUp v (Decimal.ofStr ((splitOnC ',' s).headD []) : Decimal D) with
  | none =>
    simp only [iff_true]
    have : (mapP (context TPErr.invalidTime (commaFieldType (Decimal.parse (D := D)))) (Decimal.shiftUp v)) s = .panic := by
      unfold mapP; simp only [hctx, hsh]
    rw [bind_app, this]; rfl
  | some t =>
    simp only [reduceCtorEq, iff_false]
    have : (mapP (context TPErr.invalidTime (commaFieldType (Decimal.parse (D := D)))) (Decimal.shiftUp v)) s = .ok r t := by
      unfold mapP; simp only [hctx, hsh]
    rw [Parser.bind_ok this]
    have U := @Upward.false
    intro h
    exact Good.toRes (P := fun _ => False) (((SafeF.comma.toSafe.context _).preceded U (bodyP_good U v)).bind U
      fun t => .ret _) h

end TimingPoint
end Osu
