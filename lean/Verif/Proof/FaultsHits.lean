/-
Which error a refused line gives: hit objects.
-/
import Verif.Spec.FaultsHits
import Verif.Proof.FaultsCmds
import Verif.Proof.HitObjectsPanic

namespace Osu
open Parser

/-- A panic exactly under the condition, otherwise as the fault says. -/
def Out.Meets {γ α : Type} (o : Out γ α) (P : Prop) (f : Option γ) : Prop :=
  (P ∧ o.toRes = .panic) ∨ (¬P ∧ o.Agrees f)

/-- The outcome of a converted result. -/
def Res.out {γ α : Type} : Res γ α → Out γ α
  | .ok a => .ok [] a
  | .err e => .soft (some e)
  | .panic => .panic

section
variable {γ α β δ ε : Type}

theorem Out.Agrees.meets {o : Out γ α} {f : Option γ} (h : o.Agrees f) : o.Meets False f := .inr ⟨id, h⟩

theorem Out.Meets.congr {o : Out γ α} {P Q : Prop} {f : Option γ} (h : o.Meets P f) (hpq : P ↔ Q) : o.Meets Q f := by
  rcases h with ⟨hp, h⟩ | ⟨hp, h⟩
  · exact .inl ⟨hpq.1 hp, h⟩
  · exact .inr ⟨fun hq => hp (hpq.2 hq), h⟩

theorem Out.Meets.err {o : Out γ α} {P : Prop} {f : Option γ} (h : o.Meets P f) {e : γ} :
    o.toRes = .err e ↔ ¬P ∧ f = some e := by
  rcases h with ⟨hp, h⟩ | ⟨hp, h⟩
  · simp [h, hp]
  · rw [h.toRes]; simp [hp]

theorem Out.Meets.panic {o : Out γ α} {P : Prop} {f : Option γ} (h : o.Meets P f) : o.toRes = .panic ↔ P := by
  rcases h with ⟨hp, h⟩ | ⟨hp, h⟩
  · simp [h, hp]
  · simp [h.no_panic, hp]

theorem Out.Meets.seq {o : Out γ α} {P : Prop} {f : Option γ} (h : o.Meets P f) {k : Str → α → Out γ β}
    (hk : ∀ r a, ∃ r' b, k r a = .ok r' b) : (o.seq k).Meets P f := by
  rcases h with ⟨hp, h⟩ | ⟨hp, h⟩
  · refine .inl ⟨hp, ?_⟩
    rcases o with ⟨r, a⟩ | ⟨_ | c⟩ | ⟨_ | c⟩ | _ <;> simp_all
  · exact .inr ⟨hp, h.seq hk⟩

theorem Out.Meets.res {o : Out γ α} {P : Prop} {f : Option γ} (h : o.Meets P f) {g : α → β} :
    (Res.out (o.toRes >>= fun a => .ok (g a))).Meets P f := by
  rcases h with ⟨hp, h⟩ | ⟨hp, h⟩
  · exact .inl ⟨hp, by rw [h]; rfl⟩
  · refine .inr ⟨hp, ?_⟩
    rcases o with ⟨r, a⟩ | ⟨_ | c⟩ | ⟨_ | c⟩ | _ <;> cases f <;> first | exact h | exact h.elim

theorem Res.out_toRes (r : Res γ α) : r.out.toRes = r := by cases r <;> rfl

/-- The list and the rest of the piece that it leaves. -/
theorem bar_cases {f : Str → Res ε α} (hb : ∀ p, AllC isSpace p → ∃ e, f p = .err e) (hn : ∀ q, f q ≠ .panic)
    {p : Str} {qs : List Str} (hp : NoC ',' p) :
    (barList f p = true ∧ ∃ l, (pipeVec f (p ++ preC ',' qs) : PRes γ (List α)).out = .ok (preC ',' qs) l) ∨
    (barList f p = false ∧ ∃ r l, (pipeVec f (p ++ preC ',' qs) : PRes γ (List α)).out = .ok (r ++ preC ',' qs) l ∧
      NotComma (r ++ preC ',' qs) ∧ blanks (r ++ preC ',' qs) = (blanks p && qs.isEmpty)) := by
  have hT := atComma_preC qs
  have hsp : ∀ r : Str, r ≠ [] → blanks (r ++ preC ',' qs) = (blanks r && qs.isEmpty) := by
    intro r hr
    unfold blanks
    rw [List.all_append]
    congr 1
    cases qs with
    | nil => rfl
    | cons q qs => rw [preC_cons]; rfl
  have hread : ∀ l, PipeReads f p l → barList f p = true := by
    rintro l (⟨rfl, rfl⟩ | ⟨h1, h2, h3⟩)
    · rfl
    · unfold barList
      rw [h1, h2]
      simp only [Bool.and_self, Bool.true_and, Bool.or_eq_true, List.all_eq_true]
      refine .inr fun x hx => ?_
      have : f x ∈ (splitOnC '|' p).map f := List.mem_map_of_mem hx
      rw [h3] at this
      obtain ⟨a, _, ha⟩ := List.mem_map.1 this
      exact readable_ok ha.symm
  cases hbar : barList f p with
  | true =>
    refine .inl ⟨rfl, ?_⟩
    obtain ⟨l, hl⟩ : ∃ l, PipeReads f p l := by
      unfold barList at hbar
      simp only [Bool.or_eq_true, Bool.and_eq_true, List.isEmpty_iff] at hbar
      rcases hbar with rfl | ⟨⟨h1, h2⟩, h3⟩
      · exact ⟨[], .inl ⟨rfl, rfl⟩⟩
      · have : ∀ L : List Str, L.all (readable f) = true → ∃ l : List α, L.map f = l.map .ok := by
          intro L
          induction L with
          | nil => intro _; exact ⟨[], rfl⟩
          | cons x L ih =>
            intro h
            rw [List.all_cons, Bool.and_eq_true] at h
            obtain ⟨l, hl⟩ := ih h.2
            cases hx : f x with
            | ok a => exact ⟨a :: l, by simp [hx, hl]⟩
            | err e => rw [readable_err hx] at h; exact absurd h.1 (by simp)
            | panic => exact absurd hx (hn x)
        obtain ⟨l, hl⟩ := this _ h3
        exact ⟨l, .inr ⟨h1, h2, hl⟩⟩
    exact ⟨l, by rw [pipeVec_ok (hb [] .nil) hp hT hl]; rfl⟩
  | false =>
    refine .inr ⟨rfl, ?_⟩
    have hp0 : p ≠ [] := by rintro rfl; cases hbar
    have notC : ∀ r, r ≠ [] → NoC ',' r → NotComma (r ++ preC ',' qs) := by
      intro r hr hc
      cases r with
      | nil => exact absurd rfl hr
      | cons c r =>
        intro x hx
        injection hx with hx
        exact noC_ne hc (by simp) hx
    by_cases hbl : blanks p = true
    · have hsp' : AllC isSpace p := fun c hc => by
        unfold blanks at hbl
        exact List.all_eq_true.1 hbl c hc
      obtain ⟨e, he⟩ := hb p hsp'
      exact ⟨p, [], by rw [pipeVec_blank hsp' hT he]; rfl, notC p hp0 hp, hsp p hp0⟩
    · obtain ⟨r, l, h3, hr, h4⟩ := pipeVec_cases (γ := γ) (hb [] .nil) hn hp hT
      rcases h4 with ⟨_, h4⟩ | ⟨hr0, h4⟩
      · rw [hread l h4] at hbar; cases hbar
      · refine ⟨r, l, by rw [h3]; rfl, notC r hr0 hr, ?_⟩
        rw [hsp r hr0, Bool.eq_false_iff.2 hbl]
        rcases h4 with ⟨_, rfl⟩ | ⟨c, r', rfl, hc⟩
        · rw [Bool.eq_false_iff.2 hbl]
        · have : blanks (c :: r') = false := by
            unfold blanks
            rw [List.all_cons]
            have : (c == ' ' || c == '\t') = false := by
              cases hx : (c == ' ' || c == '\t') with
              | false => rfl
              | true =>
                have : c = ' ' ∨ c = '\t' := by simpa using hx
                rcases this with rfl | rfl <;> exact absurd hc (by decide)
            rw [this]; rfl
          rw [this]

end

namespace HitObject
variable {D : Type} [DecLib D]

theorem blanks_preC (q : Str) (qs : List Str) : blanks (preC ',' (q :: qs)) = false := by rw [preC_cons]; rfl

theorem hitsampleP_not {s : Str} (hs : NotComma s) :
    (hitsampleP s).out.Agrees (if blanks s then none else some .missingHitSample) := by
  unfold hitsampleP
  rw [out_alt_cons, out_alt_one, out_map, out_nothing]
  cases blanks s with
  | true => trivial
  | false => run; rw [out_comma_not hs]; rfl

theorem hitsampleP_agrees (qs : List Str) : (hitsampleP (preC ',' qs)).out.Agrees (firstFault (sampleColumns qs) qs) := by
  unfold hitsampleP sampleColumns
  rw [out_alt_cons, out_alt_one, out_map, out_nothing]
  cases qs with
  | nil => trivial
  | cons q qs =>
    rw [blanks_preC, if_neg (by simp), if_neg (by simp), Out.seq_soft, Out.orElse_soft, out_map]
    refine agrees_comma (by simp) fun q' qs' hq => ?_
    cases hq
    exact agrees_rest HO.HitSample.parse_no_panic fun a _ => ⟨_, _, rfl⟩

/-- The columns after the edge sounds. -/
def setColumns : List Str → List (Column HOErr)
  | [] => []
  | [_] => [⟨.missingEdgeSet, .missingHitSample, orSpaces (barList HO.EdgeSet.parse), false⟩]
  | _ => [⟨.missingEdgeSet, .missingHitSample, barList HO.EdgeSet.parse, false⟩,
      ⟨.missingHitSample, .invalidHitSample, readable HO.HitSample.parse, true⟩]

theorem edgeSetP_not {s : Str} (hs : NotComma s) :
    (edgeSetP s).out.Agrees (if blanks s then none else some .missingEdgeSet) := by
  unfold edgeSetP
  rw [out_alt_cons, out_alt_one, out_map, out_nothing]
  cases blanks s with
  | true => trivial
  | false => run; rw [out_comma_not hs]; rfl

theorem edgeSetP_agrees {qs : List Str} (hqs : ∀ q ∈ qs, NoC ',' q) :
    (edgeSetP (preC ',' qs)).out.Agrees (firstFault (setColumns qs) qs) := by
  unfold edgeSetP
  rw [out_alt_cons, out_alt_one, out_map, out_nothing]
  cases qs with
  | nil => trivial
  | cons q qs =>
    rw [blanks_preC, if_neg (by simp), Out.seq_soft, Out.orElse_soft, out_bind]
    refine agrees_comma (by simp) fun q' qs' hq => ?_
    cases hq
    have hb : ∀ p, AllC isSpace p → ∃ e, HO.EdgeSet.parse p = .err e := fun p hp => HO.EdgeSet.parse_blank (space_noColon hp)
    rw [out_context]
    rcases bar_cases (γ := HOErr) hb HO.EdgeSet.parse_no_panic (qs := qs) (hqs q (by simp)) with ⟨h1, l, h2⟩ | ⟨h1, r, l, h2, h3, h4⟩
    · rw [h2, Out.label_ok, Out.seq_ok, out_bind]
      refine Out.Agrees.seq ?_ fun r a => ⟨_, _, rfl⟩
      cases qs with
      | nil =>
        simp only [setColumns, firstFault, Bool.false_eq_true, if_false, orSpaces, h1, Bool.or_true, if_true]
        exact hitsampleP_agrees []
      | cons x xs =>
        simp only [setColumns]
        rw [firstFault]
        simp only [Bool.false_eq_true, if_false, h1, if_true]
        exact hitsampleP_agrees (x :: xs)
    · rw [h2, Out.label_ok, Out.seq_ok, out_bind]
      refine Out.Agrees.seq ?_ fun r a => ⟨_, _, rfl⟩
      have := hitsampleP_not h3
      rw [h4] at this
      cases qs with
      | nil =>
        simp only [List.isEmpty_nil, Bool.and_true] at this
        simp only [setColumns, firstFault, Bool.false_eq_true, if_false, orSpaces, h1, Bool.or_false]
        exact this
      | cons x xs =>
        simp only [List.isEmpty_cons, Bool.and_false, Bool.false_eq_true, if_false] at this
        simp only [setColumns]
        rw [firstFault]
        simp only [Bool.false_eq_true, if_false, h1]
        exact this

theorem edgeP_agrees {qs : List Str} (hqs : ∀ q ∈ qs, NoC ',' q) :
    (edgeP (preC ',' qs)).out.Agrees (firstFault (edgeColumns qs) qs) := by
  unfold edgeP
  rw [out_alt_cons, out_alt_one, out_map, out_nothing]
  cases qs with
  | nil => trivial
  | cons q qs =>
    rw [blanks_preC, if_neg (by simp), Out.seq_soft, Out.orElse_soft, out_bind]
    refine agrees_comma (by simp) fun q' qs' hq => ?_
    cases hq
    have h' : ∀ x ∈ qs, NoC ',' x := fun x hx => hqs x (by simp [hx])
    rw [out_context]
    rcases bar_cases (γ := HOErr) (fun p hp => HO.HitSound.parse_blank hp) HO.HitSound.parse_no_panic (qs := qs) (hqs q (by simp)) with
      ⟨h1, l, h2⟩ | ⟨h1, r, l, h2, h3, h4⟩
    · rw [h2, Out.label_ok, Out.seq_ok, out_bind]
      refine Out.Agrees.seq ?_ fun r a => ⟨_, _, rfl⟩
      have := edgeSetP_agrees h'
      rcases qs with _ | ⟨x, _ | ⟨y, ys⟩⟩
      · simp only [edgeColumns, firstFault, Bool.false_eq_true, if_false, orSpaces, h1, Bool.or_true, if_true]
        exact this
      · simp only [edgeColumns]
        rw [firstFault]
        simp only [Bool.false_eq_true, if_false, h1, if_true]
        exact this
      · simp only [edgeColumns]
        rw [firstFault]
        simp only [Bool.false_eq_true, if_false, h1, if_true]
        exact this
    · rw [h2, Out.label_ok, Out.seq_ok, out_bind]
      refine Out.Agrees.seq ?_ fun r a => ⟨_, _, rfl⟩
      have := edgeSetP_not h3
      rw [h4] at this
      rcases qs with _ | ⟨x, _ | ⟨y, ys⟩⟩
      · simp only [List.isEmpty_nil, Bool.and_true] at this
        simp only [edgeColumns, firstFault, Bool.false_eq_true, if_false, orSpaces, h1, Bool.or_false]
        exact this
      · simp only [List.isEmpty_cons, Bool.and_false, Bool.false_eq_true, if_false] at this
        simp only [edgeColumns]
        rw [firstFault]
        simp only [Bool.false_eq_true, if_false, h1]
        exact this
      · simp only [List.isEmpty_cons, Bool.and_false, Bool.false_eq_true, if_false] at this
        simp only [edgeColumns]
        rw [firstFault]
        simp only [Bool.false_eq_true, if_false, h1]
        exact this

theorem takeWhile_mem {f : Char → Bool} {q : Str} (h : ∀ c ∈ q, f c = true) (t : Str) :
    (q ++ t).takeWhile f = q ++ t.takeWhile f := by
  induction q with
  | nil => rfl
  | cons c q ih =>
    rw [List.cons_append, List.takeWhile_cons, h c (by simp)]
    simp only [if_true, List.cons_append]
    rw [ih fun d hd => h d (by simp [hd])]

theorem curve_comma {t : Str} (h : ',' ∈ t) : ∃ e, HO.CurveType.parse t = .err e := by
  cases hr : HO.CurveType.parse t with
  | ok c => rw [curveType_chars hr] at h; cases c <;> exact absurd h (by decide)
  | err e => exact ⟨e, rfl⟩
  | panic => exact absurd hr (HO.CurveType.parse_no_panic t)

theorem sliderP_agrees (v : Nat) {qs : List Str} (hqs : ∀ q ∈ qs, NoC ',' q) :
    (sliderP v (preC ',' qs) : PRes HOErr (SlideParams D × _)).out.Agrees (firstFault (sliderColumns D qs) qs) := by
  -- what follows the curve
  let K : HO.CurveType × List (HO.CurvePoint D) → Parser HOErr (SlideParams D × Option HO.HitSample) := fun c =>
    (preceded (context .missingSlidesCount comma) (context .invalidSlidesCount (commaFieldType parseI32))).bind fun n =>
    (preceded (context .missingLength comma) (context .invalidLength (commaFieldType Decimal.parse))).bind fun len =>
    edgeP.bind fun e => ret (⟨c.1, c.2, n, len, e.1, e.2.2.2.1, e.2.1, e.2.2.2.2⟩, e.2.2.1)
  have tail : ∀ c (qs : List Str), (∀ q ∈ qs, NoC ',' q) → (K c (preC ',' qs)).out.Agrees (firstFault
      ([⟨.missingSlidesCount, .invalidSlidesCount, readable parseI32, false⟩, freeColumn .missingLength] ++ edgeColumns (qs.drop 2)) qs) := by
    intro c qs hqs
    rw [out_bind]
    refine agrees_column hqs parseI32_no_panic fun q qs1 n hq _ => ?_
    subst hq
    have h1 : ∀ x ∈ qs1, NoC ',' x := fun x hx => hqs x (by simp [hx])
    rw [out_bind]
    refine agrees_free h1 fun q2 qs2 hq2 => ?_
    subst hq2
    rw [out_bind]
    exact Out.Agrees.seq (edgeP_agrees fun x hx => h1 x (by simp [hx])) fun r a => ⟨_, _, rfl⟩
  have tail_not : ∀ c s, NotComma s → (K c s).out.Agrees (some .missingSlidesCount) := by
    intro c s hs
    show (Parser.bind _ _ s).out.Agrees _
    rw [out_bind, out_preceded, out_context, out_comma_not hs]
    rfl
  have e1 : ((sliderP v : Parser HOErr (SlideParams D × _)) (preC ',' qs)).out = ((curveP v).bind K (preC ',' qs)).out := rfl
  rw [e1, out_bind]
  unfold curveP
  rw [out_alt_cons, out_alt_one, out_map]
  cases qs with
  | nil => rfl
  | cons q qs =>
    have hq := hqs q (by simp)
    have h1 : ∀ x ∈ qs, NoC ',' x := fun x hx => hqs x (by simp [hx])
    have bar : ∀ c : HO.CurveType, ¬ '|' ∈ c.shw := by intro c; cases c <;> decide
    unfold sliderColumns curveColumn
    rw [List.headD_cons, List.cons_append, firstFault]
    simp only [Bool.false_eq_true, if_false]
    rw [out_preceded, out_context, out_comma_cons, Out.label_ok, Out.seq_ok, out_context, out_commaFieldType _ hq]
    cases hr : HO.CurveType.parse q with
    | panic => exact absurd hr (HO.CurveType.parse_no_panic q)
    | ok c =>
      have hb : ∀ x ∈ q, (!(x == '|')) = true := by
        intro x hx
        rw [curveType_chars hr] at hx
        cases hxx : x == '|' with
        | false => rfl
        | true => simp only [beq_iff_eq] at hxx; subst hxx; exact absurd hx (bar c)
      have t1 : q.takeWhile (fun c => !(c == '|')) = q := by
        have := takeWhile_mem hb []
        simpa using this
      have t2 : q.dropWhile (fun c => !(c == '|')) = [] := by
        rw [dropWhile_nil, List.all_eq_true]; exact hb
      have hc : curveName q = true := by unfold curveName; rw [t1]; exact readable_ok hr
      have hp : curvePoints D q = true := by unfold curvePoints; rw [t2]; rfl
      simp only [Out.ofRes_ok, Out.label_ok, Out.seq_ok, Out.orElse_ok, hc, hp, Bool.and_self, if_true]
      exact tail _ _ h1
    | err e =>
      rw [Out.ofRes_err, Out.label_none, Out.seq_soft, Out.orElse_soft, out_bind, out_preceded, out_context, out_comma_cons,
        Out.label_ok, Out.seq_ok, out_context, out_mapRes]
      have ht : ((takeTill fun c => c == '|' : Parser HOErr Str) (q ++ preC ',' qs)).out =
          .ok ((q ++ preC ',' qs).dropWhile fun c => !(c == '|')) ((q ++ preC ',' qs).takeWhile fun c => !(c == '|')) := rfl
      rw [ht, Out.seq_ok]
      by_cases hbar : '|' ∈ q
      · obtain ⟨a, b, hab, ha⟩ : ∃ a b, q = a ++ '|' :: b ∧ ∀ x ∈ a, (!(x == '|')) = true := by
          refine ⟨q.takeWhile fun c => !(c == '|'), (q.dropWhile fun c => !(c == '|')).tail, ?_, fun x hx => (takeWhile_allC _ _) x hx⟩
          have h0 : q.dropWhile (fun c => !(c == '|')) ≠ [] := by
            rw [Ne, dropWhile_nil, List.all_eq_true]
            intro h
            exact absurd (h _ hbar) (by simp)
          have h2 := dropWhile_headNot (fun c : Char => !(c == '|')) q
          have h3 : q = q.takeWhile (fun c => !(c == '|')) ++ q.dropWhile (fun c => !(c == '|')) := by simp
          cases hd : q.dropWhile (fun c => !(c == '|')) with
          | nil => exact absurd hd h0
          | cons d t =>
            rw [hd] at h2
            have : d = '|' := by simpa using h2.of_cons
            subst this
            rw [hd] at h3
            exact h3
        have tw : ∀ t : Str, (a ++ '|' :: t).takeWhile (fun c => !(c == '|')) = a := by
          intro t; rw [takeWhile_mem ha]; simp
        have dw : ∀ t : Str, (a ++ '|' :: t).dropWhile (fun c => !(c == '|')) = '|' :: t := by
          intro t
          have := List.takeWhile_append_dropWhile (p := fun c => !(c == '|')) (l := a ++ '|' :: t)
          rw [tw] at this
          exact List.append_cancel_left this
        have hcn : curveName q = readable HO.CurveType.parse a := by unfold curveName; rw [hab, tw]
        have hcp : curvePoints D q = barList (HO.CurvePoint.parse : Str → Res _ (HO.CurvePoint D)) b := by
          unfold curvePoints; rw [hab, dw]; rfl
        rw [hcn, hcp, hab, List.append_assoc, List.cons_append, tw, dw]
        cases hra : HO.CurveType.parse a with
        | panic => exact absurd hra (HO.CurveType.parse_no_panic a)
        | err e' =>
          rw [readable_err hra]
          rfl
        | ok c =>
          rw [readable_ok hra, Out.ofRes_ok, Out.label_ok, Out.seq_ok, out_bind, out_preceded, out_context]
          have hch : ((char '|' : Parser HOErr Char) ('|' :: (b ++ preC ',' qs))).out = .ok (b ++ preC ',' qs) '|' := rfl
          rw [hch, Out.label_ok, Out.seq_ok, out_context, out_map]
          have hbn : NoC ',' b := fun x hx => hq x (by rw [hab]; simp [hx])
          rcases bar_cases (γ := HOErr) (fun p hp => HO.CurvePoint.parse_blank (D := D) (space_noColon hp)) HO.CurvePoint.parse_no_panic (qs := qs) hbn with
            ⟨g1, l, g2⟩ | ⟨g1, r, l, g2, g3, g4⟩
          · rw [g1, g2]
            simp only [Out.seq_ok, Out.label_ok, Bool.and_self, if_true, out_ret]
            exact tail _ _ h1
          · rw [g1, g2]
            simp only [Out.seq_ok, Out.label_ok, Bool.and_false, Bool.false_eq_true, if_false, if_true, out_ret]
            exact tail_not _ _ g3
      · have hb : ∀ x ∈ q, (!(x == '|')) = true := by
          intro x hx
          cases hxx : x == '|' with
          | false => rfl
          | true => simp only [beq_iff_eq] at hxx; subst hxx; exact absurd hx hbar
        have t1 : q.takeWhile (fun c => !(c == '|')) = q := by
          have := takeWhile_mem hb []
          simpa using this
        have hc : curveName q = false := by unfold curveName; rw [t1]; exact readable_err hr
        rw [hc]
        have : ∃ e, HO.CurveType.parse ((q ++ preC ',' qs).takeWhile fun c => !(c == '|')) = .err e := by
          rw [takeWhile_mem hb]
          cases qs with
          | nil => exact ⟨e, by rw [preC_nil, List.takeWhile_nil, List.append_nil]; exact hr⟩
          | cons x xs =>
            refine curve_comma ?_
            rw [preC_cons, List.takeWhile_cons]
            simp
        obtain ⟨e', he'⟩ := this
        rw [he']
        rfl

theorem spinnerP_meets (v : Nat) {qs : List Str} (hqs : ∀ q ∈ qs, NoC ',' q) :
    (spinnerP v (preC ',' qs) : PRes HOErr (Decimal D × _)).out.Meets (∃ e es, qs = e :: es ∧ TimeOverflows D v e)
      (firstFault (spinnerColumns qs) qs) := by
  unfold spinnerP
  rw [out_bind, out_mapP]
  cases qs with
  | nil => exact .inr ⟨(by rintro ⟨e, es, h, _⟩; cases h), rfl⟩
  | cons q qs =>
    rw [out_preceded, out_context, out_comma_cons, Out.label_ok, Out.seq_ok, out_context, out_commaFieldType _ (hqs q (by simp))]
    have : (∃ e es, q :: qs = e :: es ∧ TimeOverflows D v e) ↔ TimeOverflows D v q := by
      constructor
      · rintro ⟨e, es, h, ho⟩; cases h; exact ho
      · exact fun h => ⟨q, qs, rfl, h⟩
    refine Out.Meets.congr ?_ this.symm
    rw [show (Decimal.parse q : Res Unit (Decimal D)) = .ok (Decimal.ofStr q) from rfl, Out.ofRes_ok, Out.label_ok, Out.seq_ok]
    have hs := TimingPoint.shiftUp_none (D := D) (v := v) (p := q)
    cases hsh : Decimal.shiftUp v (Decimal.ofStr q : Decimal D) with
    | none => exact .inl ⟨hs.1 hsh, rfl⟩
    | some t =>
      refine .inr ⟨fun h => (by rw [hs.2 h] at hsh; cases hsh), ?_⟩
      simp only [Out.seq_ok]
      rw [out_bind]
      refine Out.Agrees.seq ?_ fun r a => ⟨_, _, rfl⟩
      exact hitsampleP_agrees qs

theorem holdP_meets (v : Nat) (qs : List Str) :
    (holdP v (preC ',' qs) : PRes HOErr (Decimal D × _)).out.Meets
      (∃ a b, join [','] qs = a ++ ':' :: b ∧ lacks ':' a ∧ TimeOverflows D v a)
      (firstFault (holdColumns qs) qs) := by
  unfold holdP
  rw [out_bind, out_preceded, out_context]
  cases qs with
  | nil =>
    refine .inr ⟨?_, rfl⟩
    rintro ⟨a, b, h, _⟩
    cases a <;> cases h
  | cons q qs =>
    rw [out_comma_cons, Out.label_ok, Out.seq_ok, out_mapP, out_context, out_mapRes, piece_join]
    unfold holdColumns
    rw [firstFault]
    simp only [if_true, firstFault_nil]
    generalize join [','] (q :: qs) = t
    have uniq : ∀ a b : Str, NoC ':' a → a ++ ':' :: b = t → ∀ a' b', a' ++ ':' :: b' = t → lacks ':' a' = true → a' = a := by
      intro a b ha hab a' b' hab' ha'
      have h1 := takeUntil1_eq_ok (γ := HOErr).2 ⟨b, hab.symm, rfl, ha⟩
      have h2 := takeUntil1_eq_ok (γ := HOErr).2 ⟨b', hab'.symm, rfl, lacks_iff.1 ha'⟩
      rw [h1] at h2
      cases h2
      rfl
    cases hu : (takeUntil [':'] : Parser HOErr Str) t with
    | panic => unfold takeUntil at hu; split at hu <;> cases hu
    | failure e => unfold takeUntil at hu; split at hu <;> cases hu
    | error e =>
      have hno : ∀ a b, t = a ++ ':' :: b → lacks ':' a = true → False := by
        intro a b h ha
        rw [takeUntil1_eq_ok.2 ⟨b, h, rfl, lacks_iff.1 ha⟩] at hu; cases hu
      have hl : lacks ':' t = true := by
        cases hl : lacks ':' t with
        | true => rfl
        | false =>
          exfalso
          have h0 : t.dropWhile (fun c => !(c == ':')) ≠ [] := by
            rw [Ne, dropWhile_nil]
            unfold lacks at hl
            rw [hl]; simp
          have h2 := dropWhile_headNot (fun c : Char => !(c == ':')) t
          have h3 : t = t.takeWhile (fun c => !(c == ':')) ++ t.dropWhile (fun c => !(c == ':')) := by simp
          cases hd : t.dropWhile (fun c => !(c == ':')) with
          | nil => exact h0 hd
          | cons d t' =>
            rw [hd] at h2
            have : d = ':' := by simpa using h2.of_cons
            subst this
            rw [hd] at h3
            exact hno _ _ h3 (lacks_iff.2 (takeWhile_allC _ _))
      refine .inr ⟨by rintro ⟨a, b, h, ha, _⟩; exact hno a b h ha, ?_⟩
      rw [hl]
      have hf : firstCtx e = none := by
        unfold takeUntil at hu
        split at hu <;> cases hu
        rfl
      have : (PRes.error e : PRes HOErr Str).out = .soft none := by rw [PRes.out, hf]
      rw [this]
      rfl
    | ok r a =>
      obtain ⟨b, rfl, rfl, ha⟩ := takeUntil1_eq_ok.1 hu
      have hex : (∃ a' b', a ++ ':' :: b = a' ++ ':' :: b' ∧ lacks ':' a' = true ∧ TimeOverflows D v a') ↔ TimeOverflows D v a := by
        constructor
        · rintro ⟨a', b', h, ha', ho⟩
          rw [uniq a b ha rfl a' b' h.symm ha'] at ho
          exact ho
        · exact fun h => ⟨a, b, rfl, lacks_iff.2 ha, h⟩
      refine Out.Meets.congr ?_ hex.symm
      have hl : lacks ':' (a ++ ':' :: b) = false := by
        cases hl : lacks ':' (a ++ ':' :: b) with
        | false => rfl
        | true => exact absurd (lacks_iff.1 hl ':' (by simp)) (by simp)
      have dw : (a ++ ':' :: b).dropWhile (fun c => !(c == ':')) = ':' :: b := by
        have tw : (a ++ ':' :: b).takeWhile (fun c => !(c == ':')) = a := by
          rw [takeWhile_mem ha]; simp
        have := List.takeWhile_append_dropWhile (p := fun c => !(c == ':')) (l := a ++ ':' :: b)
        rw [tw] at this
        exact List.append_cancel_left this
      rw [hl, dw]
      have : (PRes.ok (':' :: b) a : PRes HOErr Str).out = .ok (':' :: b) a := rfl
      rw [this, Out.seq_ok, show (Decimal.parse a : Res Unit (Decimal D)) = .ok (Decimal.ofStr a) from rfl, Out.ofRes_ok,
        Out.label_ok, Out.seq_ok]
      have hs := TimingPoint.shiftUp_none (D := D) (v := v) (p := a)
      cases hsh : Decimal.shiftUp v (Decimal.ofStr a : Decimal D) with
      | none => exact .inl ⟨hs.1 hsh, rfl⟩
      | some tm =>
        refine .inr ⟨fun h => (by rw [hs.2 h] at hsh; cases hsh), ?_⟩
        simp only [Out.seq_ok, Bool.not_false, Bool.true_and, List.drop_succ_cons, List.drop_zero, Bool.false_eq_true, if_false]
        rw [out_bind]
        refine Out.Agrees.seq ?_ fun r a => ⟨_, _, rfl⟩
        rw [out_alt_cons, out_alt_one, out_map, out_nothing]
        have hbl : blanks (':' :: b) = false := rfl
        rw [hbl]
        simp only [Bool.false_eq_true, if_false, Out.seq_soft, Out.orElse_soft]
        have hch : ((char ':' : Parser HOErr Char) (':' :: b)).out = .ok b ':' := rfl
        rw [out_map, out_preceded, out_context, hch, Out.label_ok, Out.seq_ok, out_context, out_mapRes, out_rest, Out.seq_ok]
        cases hr : HO.HitSample.parse b with
        | ok h => rw [readable_ok hr]; trivial
        | err e => rw [readable_err hr]; rfl
        | panic => exact absurd hr (HO.HitSample.parse_no_panic b)

theorem finish_meets (v : Nat) (pos : Position D) (time : Decimal D) (t : Int32) (hs : HO.HitSound) {qs : List Str}
    (hqs : ∀ q ∈ qs, NoC ',' q) :
    (finish v pos time t hs (preC ',' qs)).out.Meets
      ((hoKind t = some .spinner ∧ ∃ e es, qs = e :: es ∧ TimeOverflows D v e) ∨
        (hoKind t = some .hold ∧ ∃ a b, join [','] qs = a ++ ':' :: b ∧ lacks ':' a ∧ TimeOverflows D v a))
      (match hoKind t with
        | some k => firstFault (kindColumns D qs k) qs
        | none => some .unknownObjType) := by
  unfold finish hoKind
  rw [skip_new]
  have e1 : ∀ (x : Int32) (k : Nat), (nthBit x k = true) = typeBit x k := fun x k => propext nthBit_iff
  simp only [e1]
  by_cases h0 : typeBit t 0
  · simp only [if_pos h0, Option.some.injEq, reduceCtorEq, false_and, or_false]
    rw [toRes_out]
    exact (hitsampleP_agrees qs).meets.res
  simp only [if_neg h0]
  by_cases h1 : typeBit t 1
  · simp only [if_pos h1, Option.some.injEq, reduceCtorEq, false_and, or_false]
    rw [toRes_out]
    exact (sliderP_agrees v hqs).meets.res
  simp only [if_neg h1]
  by_cases h3 : typeBit t 3
  · simp only [if_pos h3, Option.some.injEq, reduceCtorEq, false_and, or_false, true_and]
    rw [toRes_out]
    exact (spinnerP_meets v hqs).res
  simp only [if_neg h3]
  by_cases h7 : typeBit t 7
  · simp only [if_pos h7, Option.some.injEq, reduceCtorEq, false_and, false_or, true_and]
    rw [toRes_out]
    exact (holdP_meets v qs).res
  simp only [if_neg h7, reduceCtorEq, false_and, or_false]
  exact .inr ⟨id, rfl⟩

theorem parse_out (v : Nat) (s : Str) : (parse v s : Res HOErr (HitObject D)) =
    ((headP v s).out.seq fun r x => (finish v x.1 x.2.1 x.2.2.1 x.2.2.2 r).out).toRes := by
  unfold parse
  cases hh : (headP v s : PRes HOErr (Position D × Decimal D × Int32 × HO.HitSound)) with
  | ok r x => simp only [PRes.out, Out.seq_ok]; rw [Res.out_toRes]
  | panic => rfl
  | error e => simp only; rw [toRes_out]; rfl
  | failure e => simp only; rw [toRes_out]; rfl

theorem parse_meets {v : Nat} {s p : Str} {qs : List Str} (hs : splitOnC ',' s = p :: qs) :
    ∃ o : Out HOErr (HitObject D), parse v s = o.toRes ∧ o.Meets (HOPanics D v (p :: qs)) (hoFault D (p :: qs)) := by
  obtain ⟨rfl, hp, hqs⟩ := splitOnC_iff.1 hs
  refine ⟨_, parse_out v _, ?_⟩
  unfold headP
  rw [out_bind, out_context, out_commaFieldType _ hp, show (Decimal.parse p : Res Unit (Decimal D)) = .ok (Decimal.ofStr p) from rfl,
    Out.ofRes_ok, Out.label_ok, Out.seq_ok, out_bind]
  -- too few pieces
  have few : ∀ {ps : List Str} {e : HOErr}, ps.length < 3 → firstFault hoHeadColumns ps = some e →
      ¬HOPanics D v ps ∧ hoFault D ps = some e := by
    intro ps e hl hf
    refine ⟨?_, by unfold hoFault; rw [hf]⟩
    intro h
    cases h with
    | time _ => simp at hl; omega
    | spinner hh _ _ _ => rw [hf] at hh; cases hh
    | hold hh _ _ _ _ => rw [hf] at hh; cases hh
  cases qs with
  | nil =>
    obtain ⟨h1, h2⟩ := few (ps := [p]) (e := .missingY) (by simp) rfl
    rw [h2]
    exact .inr ⟨h1, rfl⟩
  | cons y qs =>
  have hqs1 : ∀ x ∈ qs, NoC ',' x := fun x hx => hqs x (by simp [hx])
  rw [out_preceded, out_context, out_comma_cons, Out.label_ok, Out.seq_ok, out_context, out_commaFieldType _ (hqs y (by simp)),
    show (Decimal.parse y : Res Unit (Decimal D)) = .ok (Decimal.ofStr y) from rfl, Out.ofRes_ok, Out.label_ok, Out.seq_ok, out_bind, out_mapP]
  cases qs with
  | nil =>
    obtain ⟨h1, h2⟩ := few (ps := [p, y]) (e := .missingTime) (by simp) rfl
    rw [h2]
    exact .inr ⟨h1, rfl⟩
  | cons t qs =>
  have hqs2 : ∀ x ∈ qs, NoC ',' x := fun x hx => hqs1 x (by simp [hx])
  rw [out_preceded, out_context, out_comma_cons, Out.label_ok, Out.seq_ok, out_context, out_commaFieldType _ (hqs1 t (by simp)),
    show (Decimal.parse t : Res Unit (Decimal D)) = .ok (Decimal.ofStr t) from rfl, Out.ofRes_ok, Out.label_ok, Out.seq_ok]
  have hsn := TimingPoint.shiftUp_none (D := D) (v := v) (p := t)
  cases hsh : Decimal.shiftUp v (Decimal.ofStr t : Decimal D) with
  | none => exact .inl ⟨.time (hsn.1 hsh), rfl⟩
  | some tm =>
  have hno : ¬TimeOverflows D v t := fun h => by rw [hsn.2 h] at hsh; cases hsh
  have bad : ∀ {e : HOErr}, firstFault hoHeadColumns (p :: y :: t :: qs) = some e →
      ¬HOPanics D v (p :: y :: t :: qs) ∧ hoFault D (p :: y :: t :: qs) = some e := by
    intro e hf
    refine ⟨?_, by unfold hoFault; rw [hf]⟩
    intro h
    cases h with
    | time h => exact hno h
    | spinner hh _ _ _ => rw [hf] at hh; cases hh
    | hold hh _ _ _ _ => rw [hf] at hh; cases hh
  have headF : firstFault hoHeadColumns (p :: y :: t :: qs) = firstFault
      [⟨.missingObjType, .invalidObjType, readable parseI32, false⟩,
        ⟨.missingHitSound, .invalidHitSound, readable HO.HitSound.parse, false⟩] qs := rfl
  simp only [Out.seq_ok]
  rw [out_bind]
  cases qs with
  | nil =>
    obtain ⟨h1, h2⟩ := bad (e := .missingObjType) rfl
    rw [h2]
    exact .inr ⟨h1, rfl⟩
  | cons ty qs =>
  have hqs3 : ∀ x ∈ qs, NoC ',' x := fun x hx => hqs2 x (by simp [hx])
  rw [out_preceded, out_context, out_comma_cons, Out.label_ok, Out.seq_ok, out_context, out_commaFieldType _ (hqs2 ty (by simp))]
  cases hty : parseI32 ty with
  | panic => exact absurd hty (parseI32_no_panic ty)
  | err e =>
    obtain ⟨h1, h2⟩ := bad (e := .invalidObjType) (by
      rw [headF, firstFault]; simp only [Bool.false_eq_true, if_false, readable_err hty])
    rw [h2]
    exact .inr ⟨h1, rfl⟩
  | ok n =>
  rw [Out.ofRes_ok, Out.label_ok, Out.seq_ok, out_bind]
  cases qs with
  | nil =>
    obtain ⟨h1, h2⟩ := bad (e := .missingHitSound) (by
      rw [headF, firstFault]; simp only [Bool.false_eq_true, if_false, readable_ok hty, if_true]; rfl)
    rw [h2]
    exact .inr ⟨h1, rfl⟩
  | cons hs' qs =>
  have hqs4 : ∀ x ∈ qs, NoC ',' x := fun x hx => hqs3 x (by simp [hx])
  rw [out_preceded, out_context, out_comma_cons, Out.label_ok, Out.seq_ok, out_context, out_commaFieldType _ (hqs3 hs' (by simp))]
  cases hhs : HO.HitSound.parse hs' with
  | panic => exact absurd hhs (HO.HitSound.parse_no_panic hs')
  | err e =>
    obtain ⟨h1, h2⟩ := bad (e := .invalidHitSound) (by
      rw [headF, firstFault]; simp only [Bool.false_eq_true, if_false, readable_ok hty, if_true]
      rw [firstFault]; simp only [Bool.false_eq_true, if_false, readable_err hhs])
    rw [h2]
    exact .inr ⟨h1, rfl⟩
  | ok h =>
  rw [Out.ofRes_ok, Out.label_ok, Out.seq_ok, out_ret, Out.seq_ok]
  have hf : firstFault hoHeadColumns (p :: y :: t :: ty :: hs' :: qs) = none := by
    rw [headF, firstFault]; simp only [Bool.false_eq_true, if_false, readable_ok hty, if_true]
    rw [firstFault]; simp only [Bool.false_eq_true, if_false, readable_ok hhs, if_true, firstFault_nil]
  have hk : pieceKind (p :: y :: t :: ty :: hs' :: qs) = hoKind n := by
    unfold pieceKind; simp [hty]
  have hfault : hoFault D (p :: y :: t :: ty :: hs' :: qs) = match hoKind n with
      | some k => firstFault (kindColumns D qs k) qs
      | none => some .unknownObjType := by
    unfold hoFault; rw [hf, hk]; rfl
  rw [hfault]
  refine (finish_meets v _ _ n h hqs4).congr ?_
  constructor
  · rintro (⟨h1, e, es, h2, h3⟩ | ⟨h1, a, b, h2, h3, h4⟩)
    · exact .spinner hf (by rw [hk, h1]) h2 h3
    · exact .hold hf (by rw [hk, h1]) h2 h3 h4
  · intro hx
    cases hx with
    | time h => exact absurd h hno
    | spinner _ hk' he h => rw [hk] at hk'; exact .inl ⟨hk', _, _, he, h⟩
    | hold _ hk' he ha h => rw [hk] at hk'; exact .inr ⟨hk', _, _, he, ha, h⟩

theorem parse_err_iff {v : Nat} {s : Str} {e : HOErr} : (parse v s : Res HOErr (HitObject D)) = .err e ↔
    ¬HOPanics D v (splitOnC ',' s) ∧ hoFault D (splitOnC ',' s) = some e := by
  cases hs : splitOnC ',' s with
  | nil => exact absurd hs (splitOnC_ne_nil _ _)
  | cons p qs =>
    obtain ⟨o, h1, h2⟩ := parse_meets (D := D) (v := v) hs
    rw [h1, h2.err]

theorem parse_panic_iff {v : Nat} {s : Str} : (parse v s : Res HOErr (HitObject D)) = .panic ↔
    HOPanics D v (splitOnC ',' s) := by
  cases hs : splitOnC ',' s with
  | nil => exact absurd hs (splitOnC_ne_nil _ _)
  | cons p qs =>
    obtain ⟨o, h1, h2⟩ := parse_meets (D := D) (v := v) hs
    rw [h1, h2.panic]

end HitObject
end Osu
