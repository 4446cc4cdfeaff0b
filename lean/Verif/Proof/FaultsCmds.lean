/-
Which error a refused line gives: storyboard commands.
-/
import Verif.Spec.FaultsCmds
import Verif.Proof.Faults
import Verif.Proof.CmdsPanic

namespace Osu
open Parser SB

section
variable {γ α β ε : Type}

/-- Success or an error that is final. -/
def Out.Final (o : Out γ α) : Prop := ∀ c, o ≠ .soft c

theorem Out.Final.cut (o : Out γ α) : o.cut.Final := by
  intro c; cases o <;> simp

theorem Out.Final.seq {o : Out γ α} (h : o.Final) {k : Str → α → Out γ β} (hk : ∀ r a, (k r a).Final) : (o.seq k).Final := by
  intro c
  cases o with
  | ok r a => exact hk r a c
  | soft d => exact absurd rfl (h d)
  | hard d => simp
  | panic => simp

theorem Out.Final.ok (r : Str) (a : α) : (Out.ok r a : Out γ α).Final := fun _ => nofun

theorem alt_take {p q : Parser γ α} {ps : List (Parser γ α)} {s : Str} (h : (p s).out.Final) :
    (alt (p :: q :: ps) s).out = (p s).out := by
  rw [out_alt_cons]
  generalize (p s).out = o at *
  cases o with
  | soft d => exact absurd rfl (h d)
  | _ => rfl

theorem alt_skip {p q : Parser γ α} {ps : List (Parser γ α)} {s : Str} (h : ∃ e, p s = .error e) :
    (alt (p :: q :: ps) s).out = (alt (q :: ps) s).out := by
  obtain ⟨e, he⟩ := h
  rw [out_alt_cons, he]; rfl

theorem noC_ne {s : Str} {c : Char} (h : NoC ',' s) (hc : c ∈ s) : c ≠ ',' := by
  have := h c hc
  simpa using this

/-- Not at a comma. -/
def NotComma (s : Str) : Prop := ∀ r, s ≠ ',' :: r

theorem out_comma_not {s : Str} (h : NotComma s) : (comma s : PRes γ Str).out = .soft none := by
  obtain ⟨e, he⟩ := comma_err (γ := γ) h
  have : (comma s : PRes γ Str).out = .soft none := by
    unfold comma tag at he ⊢
    split
    · rename_i hh; rw [if_pos hh] at he; cases he
    · rfl
  exact this

theorem prefix_pieces {h p : Str} {qs : List Str} (hh : NoC ',' h) :
    h.isPrefixOf (p ++ preC ',' qs) = h.isPrefixOf p := by
  induction h generalizing p with
  | nil => simp [List.isPrefixOf]
  | cons c h ih =>
    have hc : c ≠ ',' := noC_ne hh (by simp)
    cases p with
    | nil =>
      cases qs with
      | nil => rfl
      | cons q qs => rw [preC_cons]; simp [List.isPrefixOf, hc]
    | cons d p =>
      simp only [List.cons_append, List.isPrefixOf]
      rw [ih fun x hx => hh x (by simp [hx])]

/-- A keyword, and then what the parser makes of the text after it. -/
theorem agrees_header {k p : Str} {qs : List Str} {K : Parser γ α} {f : List Str → Option γ} {m : γ} {g : α → β}
    (hp : NoC ',' p) (hk : k.isPrefixOf p = true)
    (h0 : ∀ s, NotComma s → (K s).out.Agrees (some m)) (hm : f [] = some m)
    (h : (K (preC ',' qs)).out.Agrees (f qs)) :
    (((preceded (tag k) K).map g) (p ++ preC ',' qs)).out.Agrees (f (if p = k then qs else [])) := by
  obtain ⟨t, rfl⟩ := List.isPrefixOf_iff_prefix.1 hk
  rw [out_map]
  refine Out.Agrees.seq ?_ fun r a => ⟨_, _, rfl⟩
  rw [out_preceded, out_tag, if_pos (by rw [List.append_assoc]; exact List.isPrefixOf_iff_prefix.2 (List.prefix_append _ _)), Out.seq_ok,
    List.append_assoc, List.drop_left]
  cases t with
  | nil => simpa using h
  | cons c t =>
    rw [if_neg (by simp), hm]
    refine h0 _ ?_
    intro r hr
    injection hr with hr
    exact noC_ne hp (by simp) hr

theorem final_header {k p : Str} {qs : List Str} {K : Parser γ α} {g : α → β} (hk : k.isPrefixOf p = true) :
    (((preceded (tag k) (cut K)).map g) (p ++ preC ',' qs)).out.Final := by
  obtain ⟨t, rfl⟩ := List.isPrefixOf_iff_prefix.1 hk
  rw [out_map]
  refine Out.Final.seq ?_ fun r a => .ok _ _
  rw [out_preceded, out_tag, if_pos (by rw [List.append_assoc]; exact List.isPrefixOf_iff_prefix.2 (List.prefix_append _ _)), Out.seq_ok,
    out_cut]
  exact .cut _

/-- `many0` of a parser that succeeds or backtracks. -/
theorem many0_soft {p : Parser γ α} (hp : Soft p) (hc : ∀ s r a, p s = .ok r a → r.length < s.length) (s : Str) :
    ∃ r l, many0 p s = .ok r l := by
  have key : ∀ n (s : Str), s.length < n → ∃ r l, many0 p s = .ok r l := by
    intro n
    induction n with
    | zero => intro s h; omega
    | succ n ih =>
      intro s hs
      rcases hp s with ⟨r, a, h⟩ | ⟨e, h⟩
      · obtain ⟨r', l, h'⟩ := ih r (by have := hc s r a h; omega)
        exact ⟨_, _, many0_cons h (hc s r a h) h'⟩
      · exact ⟨_, _, many0_nil h⟩
  exact key _ s (Nat.lt_succ_self _)

theorem firstFault_rest {E : Type} (i : E) (ok : Str → Bool) (qs : List Str) :
    firstFault (restColumns i ok qs) qs = if qs.all ok then none else some i := by
  induction qs with
  | nil => rfl
  | cons q qs ih =>
    show firstFault (⟨i, i, ok, false⟩ :: restColumns i ok qs) (q :: qs) = _
    unfold firstFault
    simp only [Bool.false_eq_true, if_false, ih, List.all_cons]
    by_cases h : ok q = true <;> simp [h]

theorem all_readable {f : Str → Res ε α} {qs : List Str} :
    qs.all (readable f) = true ↔ ∃ l : List α, qs.map f = l.map .ok := by
  induction qs with
  | nil => simp
  | cons q qs ih =>
    rw [List.all_cons, Bool.and_eq_true, ih]
    constructor
    · rintro ⟨h, l, hl⟩
      unfold readable at h
      cases hq : f q with
      | ok a => exact ⟨a :: l, by simp [hq, hl]⟩
      | _ => rw [hq] at h; cases h
    · rintro ⟨l, hl⟩
      cases l with
      | nil => cases hl
      | cons a l =>
        simp only [List.map_cons, List.cons.injEq] at hl
        exact ⟨readable_ok hl.1, l, hl.2⟩

/-- The remaining pieces, all of one kind. -/
theorem agrees_many {p : Parser γ (List α)} {i : γ} {f : Str → Res ε β} {qs : List Str} {k : Str → List α → Out γ δ}
    (hp : ∃ r l, p (preC ',' qs) = .ok r l)
    (hl : (∃ l, p (preC ',' qs) = .ok [] l) ↔ qs.all (readable f) = true) (hk : ∀ r a, ∃ r' b, k r a = .ok r' b) :
    ((terminated p (context i eof) (preC ',' qs)).out.seq k).Agrees (firstFault (restColumns i (readable f) qs) qs) := by
  refine Out.Agrees.seq ?_ hk
  obtain ⟨r, l, h⟩ := hp
  rw [out_terminated, h, firstFault_rest]
  show ((context i eof r).out.seq _).Agrees _
  rw [out_context, out_eof]
  by_cases hr : r = []
  · subst hr
    rw [if_pos (hl.1 ⟨l, h⟩), if_pos rfl]
    trivial
  · rw [if_neg hr, if_neg]
    · run; rfl
    · intro hh
      obtain ⟨l', h'⟩ := hl.2 hh
      rw [h] at h'
      injection h' with h' _
      exact hr h'

/-- A column that takes anything. -/
theorem agrees_free {D : Type} [DecLib D] {m i : γ} {qs : List Str} {k : Str → Decimal D → Out γ β} {cs : List (Column γ)}
    (hqs : ∀ q ∈ qs, NoC ',' q)
    (h : ∀ q qs', qs = q :: qs' → (k (preC ',' qs') (Decimal.ofStr q)).Agrees (firstFault cs qs')) :
    ((preceded (context m comma) (context i (commaFieldType Decimal.parse)) (preC ',' qs)).out.seq k).Agrees
      (firstFault (freeColumn m :: cs) qs) := by
  refine agrees_comma (by rintro rfl; rfl) fun q qs' hq => ?_
  subst hq
  rw [out_context, out_commaFieldType _ (hqs q (by simp))]
  unfold firstFault freeColumn
  exact h q qs' rfl

end

namespace SB.Command
variable {D : Type}

theorem noC_drop {qs : List Str} (hqs : ∀ q ∈ qs, NoC ',' q) (n : Nat) : ∀ q ∈ qs.drop n, NoC ',' q :=
  fun q hq => hqs q (List.mem_of_mem_drop hq)

theorem out_tag2 (qs : List Str) (hqs : ∀ q ∈ qs, NoC ',' q) : (tag c!",," (preC ',' qs) : PRes CmdErr Str).out =
    match qs with
    | [] :: q :: qs' => .ok (q ++ preC ',' qs') c!",,"
    | _ => .soft none := by
  rw [out_tag]
  match qs, hqs with
  | [], _ => rfl
  | [] :: q :: qs', _ => simp [preC_cons, List.isPrefixOf]
  | [[]], _ => rfl
  | (c :: p) :: qs', hqs =>
    have hc : c ≠ ',' := noC_ne (hqs (c :: p) (by simp)) (by simp)
    simp [preC_cons, List.isPrefixOf, Ne.symm hc]

theorem endTime_agrees {β : Type} {qs : List Str} (hqs : ∀ q ∈ qs, NoC ',' q) {k : Str → Option Int32 → Out CmdErr β}
    {cs : List (Column CmdErr)}
    (h : ∀ q qs' x, qs = q :: qs' → (k (preC ',' qs') x).Agrees (firstFault cs qs')) :
    ((endTimeP (preC ',' qs)).out.seq k).Agrees
      (firstFault (⟨.missingEndTime, .invalidEndTime, orBlank (readable parseI32), false⟩ :: cs) qs) := by
  unfold endTimeP
  cases qs with
  | nil => run; rfl
  | cons q qs =>
    have hq := hqs q (by simp)
    rw [out_preceded, out_context, out_cut, out_comma_cons]
    run
    rw [out_commaField hq, out_commaFieldType _ hq]
    unfold firstFault orBlank
    simp only [Bool.false_eq_true, if_false]
    have hb : (trim q).isEmpty = q.all isWs := by
      rw [Bool.eq_iff_iff, blankField_iff]; simp [BlankField]
    run
    rw [hb]
    cases hw : q.all isWs with
    | true => simp only [Bool.true_or, if_true]; run; exact h q qs _ rfl
    | false =>
      simp only [Bool.false_or, Bool.false_eq_true, if_false]
      cases hr : parseI32 q with
      | ok a => rw [if_pos (readable_ok hr)]; run; exact h q qs _ rfl
      | err e => rw [if_neg (by simp [readable_err hr])]; run; rfl
      | panic => exact absurd hr (parseI32_no_panic q)

theorem startTime_agrees {β : Type} {qs : List Str} (hqs : ∀ q ∈ qs, NoC ',' q) {k : Str → Option Int32 → Out CmdErr β}
    {cs : List (Column CmdErr)}
    (h : ∀ q qs' x, qs = q :: qs' → (k (preC ',' qs') x).Agrees (firstFault cs qs')) :
    ((startTimeP (preC ',' qs)).out.seq k).Agrees
      (firstFault (⟨.missingStartTime, .invalidStartTime, readable parseI32, false⟩ :: cs) qs) := by
  unfold startTimeP
  refine agrees_comma (by rintro rfl; rfl) fun q qs' hq => ?_
  subst hq
  run
  rw [out_commaFieldType _ (hqs q (by simp))]
  unfold firstFault
  simp only [Bool.false_eq_true, if_false]
  cases hr : parseI32 q with
  | ok a => rw [if_pos (readable_ok hr)]; run; exact h q qs' _ rfl
  | err e => rw [if_neg (by simp [readable_err hr])]; run; rfl
  | panic => exact absurd hr (parseI32_no_panic q)

theorem agrees_of_cut {γ α β : Type} {o : Out γ α} {k : Str → α → Out γ β} {f : Option γ} (h : (o.seq k).Agrees f) :
    (o.cut.seq k).Agrees f := by
  cases o with
  | soft c => cases c <;> cases f <;> simp_all [Out.Agrees]
  | _ => exact h

theorem times_agrees {β : Type} {qs : List Str} (hqs : ∀ q ∈ qs, NoC ',' q)
    {k : Str → (Easing × Option Int32 × Option Int32) → Out CmdErr β} {cs : List (Column CmdErr)}
    (h : ∀ x, (k (preC ',' (qs.drop 3)) x).Agrees (firstFault cs (qs.drop 3))) :
    ((timesP (preC ',' qs)).out.seq k).Agrees (firstFault (timeColumns qs ++ cs) qs) := by
  unfold timesP easingP
  rw [out_pair, out_cut]
  have hseq : ∀ {α β δ : Type} (o : Out CmdErr α) (f : Str → α → Out CmdErr β) (g : Str → β → Out CmdErr δ),
      (o.seq f).seq g = o.seq fun r a => (f r a).seq g := by intro α β δ o f g; cases o <;> rfl
  rw [hseq]
  apply agrees_of_cut
  have hcol : timeColumns qs = ⟨.missingEasing, .invalidEasing, readable parseI32, false⟩ :: (timeColumns qs).tail := by
    unfold timeColumns; split <;> rfl
  rw [hcol]
  refine agrees_comma (by rintro rfl; rfl) fun q qs' hq => ?_
  subst hq
  have hqs' : ∀ q ∈ qs', NoC ',' q := fun x hx => hqs x (by simp [hx])
  run
  rw [out_commaFieldType _ (hqs q (by simp))]
  rw [List.cons_append, firstFault]
  simp only [Bool.false_eq_true, if_false]
  cases hr : parseI32 q with
  | err e => rw [if_neg (by simp [readable_err hr])]; run; rfl
  | panic => exact absurd hr (parseI32_no_panic q)
  | ok n =>
    rw [if_pos (readable_ok hr)]
    run
    rw [out_tag2 _ hqs']
    have std : (timeColumns (q :: qs')).tail =
        [⟨.missingStartTime, .invalidStartTime, readable parseI32, false⟩,
        ⟨.missingEndTime, .invalidEndTime, orBlank (readable parseI32), false⟩] →
        (((((startTimeP (preC ',' qs')).out.seq fun r a => (endTimeP r).out.seq fun r' b => .ok r' (a, b)).seq
          fun r a => .ok r (Easing.ofInt n, a)).seq k)).Agrees (firstFault ((timeColumns (q :: qs')).tail ++ cs) qs') := by
      intro hc
      rw [hc, hseq, hseq]
      refine startTime_agrees hqs' fun q1 qs1 x hq1 => ?_
      subst hq1
      rw [hseq]
      refine endTime_agrees (fun x hx => hqs' x (by simp [hx])) fun q2 qs2 y hq2 => ?_
      subst hq2
      exact h _
    match qs', hqs', h, std with
    | [] :: [] :: q3 :: qs3, _, h, _ =>
      run
      rw [List.nil_append, out_comma_cons]
      run
      unfold timeColumns
      simp only [List.tail_cons, List.cons_append, firstFault, freeColumn, anyText, if_true, Bool.false_eq_true, if_false, List.nil_append]
      exact h _
    | [] :: [] :: [], _, h, std => run; exact std rfl
    | [] :: (c :: q2) :: qs2, hqs', h, std =>
      run
      have : (comma ((c :: q2) ++ preC ',' qs2) : PRes CmdErr Str).out = .soft none := by
        refine out_comma_not ?_
        intro r hr
        injection hr with hr
        exact noC_ne (hqs' (c :: q2) (by simp)) (by simp) hr
      rw [this]
      run
      exact std rfl
    | [], _, h, std => run; exact std rfl
    | [[]], _, h, std => run; exact std rfl
    | (c :: q1) :: qs1, _, h, std => run; exact std rfl

theorem times_not {α : Type} {s : Str} (hs : NotComma s) (k : Easing × Option Int32 × Option Int32 → Parser CmdErr α) :
    (cut (timesP.bind k) s).out.Agrees (some .missingEasing) := by
  unfold timesP easingP
  run
  rw [out_comma_not hs]
  run
  rfl

variable [DecLib D]

theorem oneField_agrees {qs : List Str} (hqs : ∀ q ∈ qs, NoC ',' q) (m i c : CmdErr) :
    (cut (timesP.bind fun t =>
    (preceded (context m comma) (context i (commaFieldType Decimal.parse))).bind fun x =>
    (terminated (many0 (preceded comma (commaFieldType Decimal.parse))) (context c eof)).bind fun xs =>
    ret (t, x, xs) : Parser CmdErr ((Easing × Option Int32 × Option Int32) × Decimal D × List (Decimal D))) (preC ',' qs)).out.Agrees
      (firstFault (timeColumns qs ++ [freeColumn m]) qs) := by
  rw [out_cut, out_bind]
  refine Out.Agrees.cut (times_agrees hqs fun x => ?_)
  rw [out_bind]
  refine agrees_free (noC_drop hqs 3) fun q qs' hq => ?_
  rw [out_bind, out_terminated, firstFault_nil]
  have : many0 (preceded comma (commaFieldType Decimal.parse) : Parser CmdErr (Decimal D)) (preC ',' qs') =
      .ok [] (qs'.map Decimal.ofStr) :=
    (many0_one fun x hx => noC_drop hqs 3 x (by rw [hq]; simp [hx])).2 (map_decParse.2 rfl)
  rw [this]
  trivial

theorem twoBody_agrees {qs : List Str} (hqs : ∀ q ∈ qs, NoC ',' q) (m1 i1 m2 i2 c : CmdErr) :
    (twoBodyP m1 i1 m2 i2 c (preC ',' qs) : PRes CmdErr (_ × ContinuingFields (Decimal D))).out.Agrees
      (firstFault (timeColumns qs ++ [freeColumn m1, freeColumn m2]) qs) := by
  unfold twoBodyP
  rw [out_cut, out_bind]
  refine Out.Agrees.cut (times_agrees hqs fun x => ?_)
  rw [out_bind]
  refine agrees_free (noC_drop hqs 3) fun q qs' hq => ?_
  have h1 : ∀ q ∈ qs', NoC ',' q := fun x hx => noC_drop hqs 3 x (by rw [hq]; simp [hx])
  rw [out_bind]
  refine agrees_free h1 fun q2 qs2 hq2 => ?_
  subst hq2
  rw [out_bind, out_terminated, firstFault_nil, twoContinuing_eq qs2 fun x hx => h1 x (by simp [hx])]
  trivial

omit [DecLib D] in
theorem commaF_soft {γ ε α : Type} {f : Str → Res ε α} (hf : ∀ a, f a ≠ .panic) (s : Str) :
    ∃ r l, many0 (preceded comma (commaFieldType f) : Parser γ α) s = .ok r l := by
  refine many0_soft (Soft.comma.preceded (Soft.commaField.mapRes hf)) (fun s r a h => ?_) s
  exact comma_consumes (P := fun _ => False) (SafeF.commaFieldType hf).toSafe h

omit [DecLib D] in
theorem parameter_agrees {qs : List Str} (hqs : ∀ q ∈ qs, NoC ',' q) :
    (cut (timesP.bind fun t =>
    (preceded (context .missingParameterType comma)
      (context .invalidParameterType (commaFieldType Parameter.parse))).bind fun p =>
    (terminated (many0 (preceded comma (commaFieldType Parameter.parse)))
      (context .invalidContinuingParameters eof)).bind fun ps =>
    ret (t, p, ps) : Parser CmdErr _) (preC ',' qs)).out.Agrees
      (firstFault (timeColumns qs ++ [⟨.missingParameterType, .invalidParameterType, readable Parameter.parse, false⟩] ++
      restColumns .invalidContinuingParameters (readable Parameter.parse) (qs.drop 4)) qs) := by
  rw [out_cut, out_bind, List.append_assoc]
  refine Out.Agrees.cut (times_agrees hqs fun x => ?_)
  rw [out_bind]
  refine agrees_column (noC_drop hqs 3) parameter_no_panic fun q qs' a hq _ => ?_
  have h1 : ∀ q ∈ qs', NoC ',' q := fun x hx => noC_drop hqs 3 x (by rw [hq]; simp [hx])
  have h4 : qs.drop 4 = qs' := by rw [← List.drop_drop (i := 1) (j := 3), hq]; rfl
  rw [h4, out_bind]
  refine agrees_many (commaF_soft parameter_no_panic _) ?_ fun r a => ⟨_, _, rfl⟩
  rw [all_readable]
  exact ⟨fun ⟨l, h⟩ => ⟨l, (many0_one h1).1 h⟩, fun ⟨l, h⟩ => ⟨l, (many0_one h1).2 h⟩⟩

omit [DecLib D] in
theorem contColour_soft : Soft contColourP := by
  intro s
  unfold contColourP
  rcases h : alt [eof.map fun _ => none, (preceded comma (commaFieldType parseU8)).map some] s with ⟨r, a⟩ | e | e | _
  · exact .inl ⟨_, _, rfl⟩
  · exact .inr ⟨_, rfl⟩
  all_goals
    exfalso
    have h1 := congrArg PRes.out h
    rw [out_alt_cons, out_alt_one] at h1
    rcases Soft.eof.map (f := fun _ => (none : Option UInt8)) (γ := CmdErr) s with ⟨r, a, h2⟩ | ⟨e, h2⟩ <;>
    rcases (Soft.comma.preceded (Soft.commaField.mapRes parseU8_no_panic)).map (f := (some : UInt8 → _)) (γ := CmdErr) s with
      ⟨r', a', h3⟩ | ⟨e', h3⟩ <;>
    (rw [h2] at h1; unfold commaFieldType at h1; rw [h3] at h1; cases h1)

omit [DecLib D] in
theorem contColours_soft (s : Str) : ∃ r l, contColoursP s = .ok r l := by
  refine many0_soft (Soft.comma.preceded ((Soft.commaField.mapRes parseU8_no_panic).bind fun _ =>
    contColour_soft.bind fun _ => contColour_soft.bind fun _ => Soft.ret _)) (fun s r a h => ?_) s
  refine comma_consumes (P := fun _ => False) (Safe.bind @Upward.false (SafeF.commaFieldType parseU8_no_panic).toSafe fun _ =>
    Safe.bind @Upward.false contColourP_safe.toSafe fun _ => Safe.bind @Upward.false contColourP_safe.toSafe fun _ => (Good.ret _).toSafe) h

omit [DecLib D] in
theorem colour_agrees {qs : List Str} (hqs : ∀ q ∈ qs, NoC ',' q) :
    (cut (timesP.bind fun t =>
    (preceded (context .missingRed comma) (context .invalidRed (commaFieldType parseU8))).bind fun r =>
    (preceded (context .missingGreen comma) (context .invalidGreen (commaFieldType parseU8))).bind fun g =>
    (preceded (context .missingBlue comma) (context .invalidBlue (commaFieldType parseU8))).bind fun b =>
    (terminated contColoursP (context .invalidContinuingColours eof)).bind fun c =>
    ret (t, (⟨(r, g, b), c⟩ : Colours)) : Parser CmdErr _) (preC ',' qs)).out.Agrees
      (firstFault (timeColumns qs ++ [⟨.missingRed, .invalidRed, readable parseU8, false⟩,
      ⟨.missingGreen, .invalidGreen, readable parseU8, false⟩, ⟨.missingBlue, .invalidBlue, readable parseU8, false⟩] ++
      restColumns .invalidContinuingColours (readable parseU8) (qs.drop 6)) qs) := by
  rw [out_cut, out_bind, List.append_assoc]
  refine Out.Agrees.cut (times_agrees hqs fun x => ?_)
  rw [out_bind]
  refine agrees_column (noC_drop hqs 3) parseU8_no_panic fun q qs' a hq _ => ?_
  have h1 : ∀ q ∈ qs', NoC ',' q := fun x hx => noC_drop hqs 3 x (by rw [hq]; simp [hx])
  rw [out_bind]
  refine agrees_column h1 parseU8_no_panic fun q2 qs2 a2 hq2 _ => ?_
  subst hq2
  have h2 : ∀ q ∈ qs2, NoC ',' q := fun x hx => h1 x (by simp [hx])
  rw [out_bind]
  refine agrees_column h2 parseU8_no_panic fun q3 qs3 a3 hq3 _ => ?_
  subst hq3
  have h3 : ∀ q ∈ qs3, NoC ',' q := fun x hx => h2 x (by simp [hx])
  have h6 : qs.drop 6 = qs3 := by rw [← List.drop_drop (i := 3) (j := 3), hq]; rfl
  rw [h6, out_bind]
  refine agrees_many (contColours_soft _) ?_ fun r a => ⟨_, _, rfl⟩
  rw [all_readable]
  exact ⟨fun ⟨l, h⟩ => by obtain ⟨ns, hn, _⟩ := (contColours_pieces _ h3 l).1 h; exact ⟨ns, hn⟩,
    fun ⟨ns, h⟩ => ⟨_, (contColours_pieces _ h3 _).2 ⟨ns, h, rfl⟩⟩⟩

theorem readable_orEmpty {q : Str} (h : q ≠ []) (f : Str → Bool) : orEmpty f q = f q := by
  cases q with
  | nil => exact absurd rfl h
  | cons c q => rfl

theorem out_commaPeek {β : Type} {b : β} {qs : List Str} (hqs : ∀ q ∈ qs, NoC ',' q) :
    (((pair comma (peek comma)).map fun _ => b) (preC ',' qs) : PRes CmdErr β).out =
    match qs with
    | [] :: q :: qs' => .ok (preC ',' (q :: qs')) b
    | _ => .soft none := by
  match qs, hqs with
  | [], _ => rfl
  | [] :: q :: qs', _ => run; rw [List.nil_append, out_comma_cons]; run
  | [[]], _ => rfl
  | (c :: p) :: qs', hqs =>
    have hc : c ≠ ',' := noC_ne (hqs (c :: p) (by simp)) (by simp)
    run
    rw [out_comma_not (s := c :: p ++ preC ',' qs') (by intro r hr; injection hr with hr; exact hc hr)]
    run

theorem loop_agrees {qs : List Str} (hqs : ∀ q ∈ qs, NoC ',' q) :
    (cut (pair (alt [(pair comma (peek comma)).map fun _ => none, startTimeP])
      (preceded (context .missingLoopCount comma) (context .invalidLoopCount (mapRes rest parseU32))) : Parser CmdErr _) (preC ',' qs)).out.Agrees
      (firstFault [startColumn qs, ⟨.missingLoopCount, .invalidLoopCount, readable parseU32, true⟩] qs) := by
  rw [out_cut, out_pair, out_alt_cons, out_alt_one, out_commaPeek hqs]
  refine Out.Agrees.cut ?_
  have tail : ∀ (qs' : List Str) (a : Option Int32), (((preceded (context .missingLoopCount comma) (context .invalidLoopCount (mapRes rest parseU32))
      (preC ',' qs') : PRes CmdErr UInt32).out.seq fun r' b => .ok r' (a, b))).Agrees
      (firstFault [⟨.missingLoopCount, .invalidLoopCount, readable parseU32, true⟩] qs') := by
    intro qs' a
    refine agrees_comma (by rintro rfl; rfl) fun q qs'' hq => ?_
    subst hq
    exact agrees_rest parseU32_no_panic fun a _ => ⟨_, _, rfl⟩
  have std : startColumn qs = ⟨.missingStartTime, .invalidStartTime, readable parseI32, false⟩ → 
      ((startTimeP (preC ',' qs)).out.seq fun r a => (preceded (context .missingLoopCount comma) (context .invalidLoopCount (mapRes rest parseU32))
      r : PRes CmdErr UInt32).out.seq fun r' b => .ok r' (a, b)).Agrees (firstFault [startColumn qs, ⟨.missingLoopCount, .invalidLoopCount, readable parseU32, true⟩] qs) := by
    intro h
    rw [h]
    exact startTime_agrees hqs fun q qs' x hq => tail qs' x
  match qs, hqs, std with
  | [], _, std => exact std rfl
  | [[]], _, std => exact std rfl
  | [c :: p], _, std => exact std rfl
  | [] :: q :: qs', _, std =>
    exact tail (q :: qs') none
  | (c :: p) :: q :: qs', hqs, std =>
    have e : firstFault [startColumn ((c :: p) :: q :: qs'), ⟨.missingLoopCount, .invalidLoopCount, readable parseU32, true⟩] ((c :: p) :: q :: qs') =
      firstFault [⟨.missingStartTime, .invalidStartTime, readable parseI32, false⟩, ⟨.missingLoopCount, .invalidLoopCount, readable parseU32, true⟩] ((c :: p) :: q :: qs') := rfl
    rw [e]
    exact startTime_agrees hqs fun q qs' x hq => tail qs' x

/-- The end time and group number of a trigger. -/
theorem triggerTail_agrees {qs : List Str} (hqs : ∀ q ∈ qs, NoC ',' q) :
    (triggerTailP (preC ',' qs)).out.Agrees
      (firstFault ([⟨.missingEndTime, .invalidEndTime, orEmpty (readable parseI32), false⟩,
        ⟨.invalidGroupNumber, .invalidGroupNumber, readable parseI32, true⟩].take qs.length) qs) := by
  unfold triggerTailP
  have hgroup : ∀ (q : Str) (qs : List Str) (β : Type) (f : Int32 → β), (((context .invalidGroupNumber (cut (restType parseI32))
      (q ++ preC ',' qs) : PRes CmdErr Int32).out.seq fun r a => .ok r (f a)).Agrees
      (firstFault [⟨.invalidGroupNumber, .invalidGroupNumber, readable parseI32, true⟩] (q :: qs))) ∧
      ((context .invalidGroupNumber (cut (restType parseI32)) (q ++ preC ',' qs) : PRes CmdErr Int32).out.seq fun r a => Out.ok r (f a)).Final := by
    intro q qs β f
    run
    rw [piece_join]
    unfold firstFault
    simp only [if_true]
    cases hr : parseI32 (join [','] (q :: qs)) with
    | ok a => rw [if_pos (readable_ok hr), firstFault_nil]; run; exact ⟨trivial, .ok _ _⟩
    | err e => rw [if_neg (by simp [readable_err hr])]; run; exact ⟨rfl, nofun⟩
    | panic => exact absurd hr (parseI32_no_panic _)
  match qs, hqs with
  | [], _ => run; trivial
  | [q], hqs =>
    have hq := hqs q (by simp)
    have hb : (trim (preC ',' [q])).isEmpty = false := by
      cases h : (trim (preC ',' [q])).isEmpty with
      | false => rfl
      | true => cases blank_preC.1 h
    run
    rw [out_commaFieldType _ hq, hb]
    simp only [List.length_cons, List.length_nil, Nat.zero_add, List.take_succ_cons, List.take_zero, preC_nil, List.append_nil]
    unfold firstFault
    simp only [Bool.false_eq_true, if_false, firstFault_nil]
    cases q with
    | nil => trivial
    | cons c q =>
      rw [out_comma_not (s := c :: q) (by intro r hr; injection hr with hr; exact noC_ne hq (by simp) hr)]
      have hne : (preC ',' [c :: q] == [',']) = false := by simp [preC_cons]
      rw [hne, readable_orEmpty (by simp)]
      cases hr : parseI32 (c :: q) with
      | ok a => simp only [readable_ok hr, Bool.false_eq_true, if_false, if_true]; run; trivial
      | err e => simp only [readable_err hr, Bool.false_eq_true, if_false]; run; rfl
      | panic => exact absurd hr (parseI32_no_panic _)
  | q :: q2 :: qs2, hqs =>
    have hq := hqs q (by simp)
    have htake : ([⟨.missingEndTime, .invalidEndTime, orEmpty (readable parseI32), false⟩,
        ⟨.invalidGroupNumber, .invalidGroupNumber, readable parseI32, true⟩] : List (Column CmdErr)).take (q :: q2 :: qs2).length =
        [⟨.missingEndTime, .invalidEndTime, orEmpty (readable parseI32), false⟩,
        ⟨.invalidGroupNumber, .invalidGroupNumber, readable parseI32, true⟩] := by simp
    rw [htake, firstFault]
    simp only [Bool.false_eq_true, if_false]
    have hcons : ∀ {α : Type} (o : Out CmdErr α) (p : Out CmdErr α), o.Final → o.orElse p = o := by
      intro α o p h
      cases o with
      | soft c => exact absurd rfl (h c)
      | _ => rfl
    cases hr : parseI32 q with
    | panic => exact absurd hr (parseI32_no_panic _)
    | ok a =>
      have hread : orEmpty (readable parseI32) q = true := by simp [orEmpty, readable_ok hr]
      rw [if_pos hread, out_alt_cons]
      have e1 : ((((pair (preceded comma (commaFieldType parseI32))
          (preceded comma (context .invalidGroupNumber (cut (restType parseI32))))).map fun (e, g) => (some e, some g)) : Parser CmdErr _)
          (preC ',' (q :: q2 :: qs2))).out = ((context .invalidGroupNumber (cut (restType parseI32)) (q2 ++ preC ',' qs2) :
            PRes CmdErr Int32).out.seq fun r g => .ok r (some a, some g)) := by
        rw [out_map, out_pair, out_preceded, out_comma_cons, Out.seq_ok, out_commaFieldType _ hq, hr, Out.ofRes_ok, Out.seq_ok, out_preceded,
          out_comma_cons, Out.seq_ok]
        generalize (context CmdErr.invalidGroupNumber (cut (restType parseI32)) (q2 ++ preC ',' qs2) : PRes CmdErr Int32).out = o
        cases o <;> rfl
      rw [e1, hcons _ _ (hgroup q2 qs2 _ fun g => (some a, some g)).2]
      exact (hgroup q2 qs2 _ fun g => (some a, some g)).1
    | err e =>
      rw [out_alt_cons]
      have e1 : ((((pair (preceded comma (commaFieldType parseI32))
          (preceded comma (context .invalidGroupNumber (cut (restType parseI32))))).map fun (e, g) => (some e, some g)) : Parser CmdErr _)
          (preC ',' (q :: q2 :: qs2))).out = .soft none := by
        rw [out_map, out_pair, out_preceded, out_comma_cons, Out.seq_ok, out_commaFieldType _ hq, hr]; rfl
      rw [e1, Out.orElse_soft, out_alt_cons]
      cases q with
      | nil =>
        rw [if_pos (show orEmpty (readable parseI32) [] = true from rfl)]
        have e2 : (((preceded (pair comma comma) (context .invalidGroupNumber (cut (restType parseI32)))).map fun g => ((none : Option Int32), some g)) 
            (preC ',' ([] :: q2 :: qs2)) : PRes CmdErr _).out = ((context .invalidGroupNumber (cut (restType parseI32)) (q2 ++ preC ',' qs2) :
            PRes CmdErr Int32).out.seq fun r g => .ok r (none, some g)) := by
          rw [out_map, out_preceded, out_pair, out_comma_cons, Out.seq_ok, List.nil_append, out_comma_cons, Out.seq_ok, Out.seq_ok]
        rw [e2, hcons _ _ (hgroup q2 qs2 _ fun g => ((none : Option Int32), some g)).2]
        exact (hgroup q2 qs2 _ fun g => ((none : Option Int32), some g)).1
      | cons c q =>
        rw [readable_orEmpty (by simp), if_neg (by simp [readable_err hr])]
        have hb : (trim (preC ',' ((c :: q) :: q2 :: qs2))).isEmpty = false := by
          cases h : (trim (preC ',' ((c :: q) :: q2 :: qs2))).isEmpty with
          | false => rfl
          | true => cases blank_preC.1 h
        have hne : (preC ',' ((c :: q) :: q2 :: qs2) == [',']) = false := by simp [preC_cons]
        obtain ⟨e', he'⟩ := TimingPoint.err_comma parseI32_no_panic (fun s a h => (parseI32_chars h).2) (c :: q) q2 qs2
        run
        rw [out_comma_not (s := c :: q ++ preC ',' (q2 :: qs2)) (by intro r hr; injection hr with hr; exact noC_ne hq (by simp) hr), hb, hne, he']
        run
        rfl

variable [UniLib]

theorem trigger_agrees {x : Str} {qs : List Str} (hx : NoC ',' x) (hqs : ∀ q ∈ qs, NoC ',' q)
    (ht : TriggerType.parse x ≠ .panic) :
    (cut ((context .invalidTriggerType (mapRes commaField TriggerType.parse)).bind fun t =>
      (alt [(pair comma (peek comma)).map fun _ => none,
        (verify rest fun s => (trim s).isEmpty).map fun _ => none, startTimeP]).bind fun st =>
      triggerTailP.bind fun (et, g) => ret (t, st, et, g)) (x ++ preC ',' qs) : PRes CmdErr _).out.Agrees
    (firstFault (triggerColumns (x :: qs)) (x :: qs)) := by
  rw [out_cut, out_bind]
  refine Out.Agrees.cut ?_
  unfold triggerColumns
  refine agrees_field hx ht fun t _ => ?_
  rw [out_bind, out_alt_cons, out_alt_cons, out_alt_one, out_commaPeek hqs]
  have tail : ∀ (qs' : List Str) (st : Option Int32), (∀ q ∈ qs', NoC ',' q) → 
      ((triggerTailP.bind fun x : Option Int32 × Option Int32 => ret (t, st, x.1, x.2)) (preC ',' qs') : PRes CmdErr _).out.Agrees
      (firstFault ([⟨.missingEndTime, .invalidEndTime, orEmpty (readable parseI32), false⟩,
        ⟨.invalidGroupNumber, .invalidGroupNumber, readable parseI32, true⟩].take qs'.length) qs') := by
    intro qs' st h
    rw [out_bind]
    exact Out.Agrees.seq (triggerTail_agrees h) fun r a => ⟨_, _, rfl⟩
  have hb : ∀ q qs', (trim (preC ',' (q :: qs'))).isEmpty = false := by
    intro q qs'
    cases h : (trim (preC ',' (q :: qs'))).isEmpty with
    | false => rfl
    | true => cases blank_preC.1 h
  have std : ∀ q qs', qs = q :: qs' → ((startTimeP (preC ',' qs)).out.seq fun r st =>
      ((triggerTailP.bind fun x : Option Int32 × Option Int32 => ret (t, st, x.1, x.2)) r : PRes CmdErr _).out).Agrees
      (firstFault (⟨.missingStartTime, .invalidStartTime, readable parseI32, false⟩ :: 
        [⟨.missingEndTime, .invalidEndTime, orEmpty (readable parseI32), false⟩,
        ⟨.invalidGroupNumber, .invalidGroupNumber, readable parseI32, true⟩].take qs'.length) qs) := by
    intro q qs' h
    subst h
    refine startTime_agrees hqs fun q1 qs1 x hq1 => ?_
    cases hq1
    exact tail qs' x fun y hy => hqs y (by simp [hy])
  match qs, hqs, std with
  | [], _, _ =>
    rw [Out.orElse_soft]
    show Out.Agrees _ (firstFault _ [])
    exact tail [] none (by simp)
  | [] :: q :: qs', hqs, _ =>
    rw [Out.orElse_ok, Out.seq_ok]
    exact tail (q :: qs') none fun y hy => hqs y (by simp only [List.mem_cons] at *; exact .inr hy)
  | [[]], _, std =>
    rw [Out.orElse_soft, out_map, out_verify, out_rest, Out.seq_ok, hb]
    exact std [] [] rfl
  | [c :: p], _, std =>
    rw [Out.orElse_soft, out_map, out_verify, out_rest, Out.seq_ok, hb]
    exact std _ [] rfl
  | (c :: p) :: q :: qs', _, std =>
    rw [Out.orElse_soft, out_map, out_verify, out_rest, Out.seq_ok, hb]
    exact std _ (q :: qs') rfl

theorem final_trigger {p : Str} {qs : List Str} (hk : List.isPrefixOf c!"T" p = true) :
    ((triggerP : Parser CmdErr (Command D)) (p ++ preC ',' qs)).out.Final := by
  obtain ⟨t, rfl⟩ := List.isPrefixOf_iff_prefix.1 hk
  unfold triggerP
  rw [out_map]
  refine Out.Final.seq ?_ fun r a => .ok _ _
  rw [out_preceded, out_pair, out_tag, if_pos (by rw [List.append_assoc]; exact List.isPrefixOf_iff_prefix.2 (List.prefix_append _ _)), Out.seq_ok,
    out_context, out_cut]
  refine Out.Final.seq (Out.Final.seq ?_ fun r a => .ok _ _) fun r a => ?_
  · intro c
    generalize (comma (List.drop (c!"T").length (c!"T" ++ t ++ preC ',' qs)) : PRes CmdErr Str).out = o
    rcases o with ⟨r, a⟩ | ⟨_ | d⟩ | ⟨_ | d⟩ | _ <;> simp
  · rw [out_cut]; exact .cut _

theorem triggerP_agrees {p : Str} {qs : List Str} (hp : NoC ',' p) (hqs : ∀ q ∈ qs, NoC ',' q)
    (hk : List.isPrefixOf c!"T" p = true) (hn : ¬CmdPanics (p :: qs)) :
    ((triggerP : Parser CmdErr (Command D)) (p ++ preC ',' qs)).out.Agrees
      (firstFault (triggerColumns qs) (if p = c!"T" then qs else [])) := by
  obtain ⟨t, rfl⟩ := List.isPrefixOf_iff_prefix.1 hk
  unfold triggerP
  rw [out_map]
  refine Out.Agrees.seq ?_ fun r a => ⟨_, _, rfl⟩
  rw [out_preceded, out_pair, out_tag, if_pos (by rw [List.append_assoc]; exact List.isPrefixOf_iff_prefix.2 (List.prefix_append _ _)), Out.seq_ok,
    out_context, out_cut, List.append_assoc, List.drop_left]
  cases t with
  | nil =>
    rw [List.nil_append, List.append_nil, if_pos rfl]
    cases qs with
    | nil => rfl
    | cons x qs =>
      rw [out_comma_cons, Out.cut_ok, Out.label_ok, Out.seq_ok, Out.seq_ok]
      have := trigger_agrees (x := x) (qs := qs) (hqs x (by simp)) (fun q hq => hqs q (by simp [hq])) (by
        intro h
        exact hn ⟨x, qs, rfl, TriggerType.trigger_panics.1 h⟩)
      exact this
  | cons c t =>
    rw [if_neg (by simp), out_comma_not (s := c :: t ++ preC ',' qs) (by
      intro r hr; injection hr with hr; exact noC_ne hp (by simp) hr)]
    rfl

theorem final_one {k p : Str} {qs : List Str} {m i c : CmdErr} {g : (Easing × Option Int32 × Option Int32) × Decimal D × List (Decimal D) → Command D}
    (hk : k.isPrefixOf p = true) : (((oneFieldP k m i c).map g) (p ++ preC ',' qs)).out.Final := final_header hk

theorem one_agrees {k p : Str} {qs : List Str} {m i c : CmdErr} {g : (Easing × Option Int32 × Option Int32) × Decimal D × List (Decimal D) → Command D}
    (hp : NoC ',' p) (hqs : ∀ q ∈ qs, NoC ',' q) (hk : k.isPrefixOf p = true) :
    (((oneFieldP k m i c).map g) (p ++ preC ',' qs)).out.Agrees
      (firstFault (timeColumns qs ++ [freeColumn m]) (if p = k then qs else [])) := by
  refine agrees_header (f := firstFault (timeColumns qs ++ [freeColumn m])) hp hk (fun s hs => times_not hs _) ?_ (oneField_agrees hqs m i c)
  unfold timeColumns; split <;> rfl

theorem command_fault {p : Str} {qs : List Str} (hp : NoC ',' p) (hqs : ∀ q ∈ qs, NoC ',' q) (hn : ¬CmdPanics (p :: qs)) :
    ((alt [moveP, rotateP, scaleP, vectorScaleP, fadeP, parameterP, moveYP, colourP,
      moveXP, triggerP, loopP, context CmdErr.unknownCommandType Parser.fail] : Parser CmdErr (Command D)) (p ++ preC ',' qs)).out.Agrees
      (cmdFault p qs) := by
  have htime : ∀ cs, firstFault (timeColumns qs ++ cs) [] = some .missingEasing := by
    intro cs
    unfold timeColumns; split <;> rfl
  unfold cmdFault
  by_cases hM : p = c!"M" ∧ qs ≠ []
  · rw [if_pos hM]
    obtain ⟨rfl, hne⟩ := hM
    have e : (moveP (c!"M" ++ preC ',' qs) : PRes CmdErr (Command D)).out = 
        (twoBodyP .missingMoveX .invalidMoveX .missingMoveY .invalidMoveY .invalidContinuingMove (preC ',' qs) : 
          PRes CmdErr (_ × ContinuingFields (Decimal D))).out.seq fun r x => .ok r (mk x.1.2.1 (.move x.1.1 x.1.2.2 x.2)) := by
      unfold moveP
      rw [out_map, out_preceded, out_pair, out_tag, if_pos (by simp), Out.seq_ok, out_peek]
      cases qs with
      | nil => exact absurd rfl hne
      | cons q qs =>
        show (((comma (preC ',' (q :: qs)) : PRes CmdErr Str).out.seq _).seq _ |>.seq _ |>.seq _) = _
        rw [out_comma_cons]
        rfl
    rw [alt_take]
    · rw [e]
      exact Out.Agrees.seq (twoBody_agrees hqs _ _ _ _ _) fun r a => ⟨_, _, rfl⟩
    · rw [e]
      refine Out.Final.seq ?_ fun r a => .ok _ _
      unfold twoBodyP
      rw [out_cut]; exact .cut _
  · rw [if_neg hM, alt_skip]
    · have skip : ∀ {h : Str} {α : Type} {K : Parser CmdErr α} {f : α → Command D}, lacks ',' h = true → h.isPrefixOf p = false →
          ∃ e, (preceded (tag h) K).map f (p ++ preC ',' qs) = .error e := by
        intro h α K f h1 h2
        exact hdr_err (by rw [prefix_pieces (NoC_hdr h1)]; exact h2)
      unfold cmdTable
      cases h1 : List.isPrefixOf c!"R" p with
      | true => simp only [List.find?, h1]; rw [alt_take (p := rotateP) (final_one h1)]; exact one_agrees hp hqs h1
      | false => 
      simp only [List.find?, h1]; rw [alt_skip (p := rotateP) (skip (by rfl) h1)]
      cases h2 : List.isPrefixOf c!"S" p with
      | true => simp only [h2]; rw [alt_take (p := scaleP) (final_one h2)]; exact one_agrees hp hqs h2
      | false => 
      simp only [h2]; rw [alt_skip (p := scaleP) (skip (by rfl) h2)]
      cases h3 : List.isPrefixOf c!"V" p with
      | true =>
        simp only [h3]; rw [alt_take (p := vectorScaleP) (final_header h3)]
        exact agrees_header (f := firstFault (timeColumns qs ++ _)) hp h3 (fun s hs => times_not hs _) (htime _) (twoBody_agrees hqs _ _ _ _ _)
      | false => 
      simp only [h3]; rw [alt_skip (p := vectorScaleP) (skip (by rfl) h3)]
      cases h4 : List.isPrefixOf c!"F" p with
      | true => simp only [h4]; rw [alt_take (p := fadeP) (final_one h4)]; exact one_agrees hp hqs h4
      | false => 
      simp only [h4]; rw [alt_skip (p := fadeP) (skip (by rfl) h4)]
      cases h5 : List.isPrefixOf c!"P" p with
      | true =>
        simp only [h5]; rw [alt_take (p := parameterP) (final_header h5)]
        exact agrees_header (f := firstFault (timeColumns qs ++ _ ++ _)) hp h5 (fun s hs => times_not hs _) 
          (by rw [List.append_assoc]; exact htime _) (parameter_agrees hqs)
      | false => 
      simp only [h5]; rw [alt_skip (p := parameterP) (skip (by rfl) h5)]
      cases h6 : List.isPrefixOf c!"MY" p with
      | true => simp only [h6]; rw [alt_take (p := moveYP) (final_one h6)]; exact one_agrees hp hqs h6
      | false => 
      simp only [h6]; rw [alt_skip (p := moveYP) (skip (by rfl) h6)]
      cases h7 : List.isPrefixOf c!"C" p with
      | true =>
        simp only [h7]; rw [alt_take (p := colourP) (final_header h7)]
        exact agrees_header (f := firstFault (timeColumns qs ++ _ ++ _)) hp h7 (fun s hs => times_not hs _) 
          (by rw [List.append_assoc]; exact htime _) (colour_agrees hqs)
      | false => 
      simp only [h7]; rw [alt_skip (p := colourP) (skip (by rfl) h7)]
      cases h8 : List.isPrefixOf c!"MX" p with
      | true => simp only [h8]; rw [alt_take (p := moveXP) (final_one h8)]; exact one_agrees hp hqs h8
      | false => 
      simp only [h8]; rw [alt_skip (p := moveXP) (skip (by rfl) h8)]
      cases h9 : List.isPrefixOf c!"T" p with
      | true => simp only [h9]; rw [alt_take (final_trigger h9)]; exact triggerP_agrees hp hqs h9 hn
      | false => 
      simp only [h9]; rw [alt_skip (trigger_err (by rw [prefix_pieces (NoC_hdr (by rfl))]; exact h9))]
      cases h10 : List.isPrefixOf c!"L" p with
      | true =>
        simp only [h10]; rw [alt_take (p := loopP) (final_header h10)]
        refine agrees_header (f := firstFault [startColumn qs, _]) (m := .missingStartTime) hp h10 (fun s hs => ?_) ?_ (loop_agrees hqs)
        · unfold startTimeP
          run
          rw [out_comma_not hs]
          run
          rfl
        · unfold startColumn firstFault; split <;> rfl
      | false =>
      simp only [h10]; rw [alt_skip (p := loopP) (skip (by rfl) h10), out_alt_one]
      rfl
    · by_cases hp' : p = c!"M"
      · have : qs = [] := Classical.byContradiction fun h => hM ⟨hp', h⟩
        subst this hp'
        exact move_err (by simp [preC_nil])
      · exact move_err' hp' hp

theorem parse_err_iff {s p : Str} {qs : List Str} (hs : splitOnC ',' (s.dropWhile isIndent) = p :: qs) {e : CmdErr} :
    (parse s : Res CmdErr (Command D)) = .err e ↔ ¬CmdPanics (p :: qs) ∧ cmdFault p qs = some e := by
  by_cases hn : CmdPanics (p :: qs)
  · have := (command_panics (D := D) (s := s)).2 (by rw [hs]; exact hn)
    simp [this, hn]
  · simp only [hn, not_false_eq_true, true_and]
    obtain ⟨hd, hp, hqs⟩ := splitOnC_iff.1 hs
    rw [← (command_fault (D := D) hp hqs hn).toRes, ← toRes_out]
    unfold parse commandP
    rw [preceded, bind_app, Parser.takeWhile]
    simp only [hd]

end SB.Command
end Osu
