/-
Which error a refused line gives: lines that start an event.
-/
import Verif.Spec.FaultsEvents
import Verif.Proof.FaultsCmds
import Verif.Proof.EventsPanic

namespace Osu
open Parser SB

/-- A panic, or as the fault says. -/
def Out.Fits {γ α : Type} (o : Out γ α) (f : Option γ) : Prop := o.toRes = .panic ∨ o.Agrees f

section
variable {γ α β δ ε : Type}

theorem Out.Agrees.fits {o : Out γ α} {f : Option γ} (h : o.Agrees f) : o.Fits f := .inr h

theorem Out.Fits.toRes {o : Out γ α} {f : Option γ} (h : o.Fits f) {e : γ} :
    o.toRes = .err e ↔ o.toRes ≠ .panic ∧ f = some e := by
  rcases h with h | h
  · simp [h]
  · rw [h.toRes]
    exact ⟨fun hf => ⟨h.no_panic, hf⟩, fun hf => hf.2⟩

theorem Out.Fits.cut {o : Out γ α} {f : Option γ} (h : o.Fits f) : o.cut.Fits f := by
  rcases h with h | h
  · refine .inl ?_
    rcases o with ⟨r, a⟩ | ⟨_ | c⟩ | ⟨_ | c⟩ | _ <;> simp_all
  · exact .inr h.cut

theorem Out.Fits.seq {o : Out γ α} {f : Option γ} (h : o.Fits f) {k : Str → α → Out γ β}
    (hk : ∀ r a, ∃ r' b, k r a = .ok r' b) : (o.seq k).Fits f := by
  rcases h with h | h
  · refine .inl ?_
    rcases o with ⟨r, a⟩ | ⟨_ | c⟩ | ⟨_ | c⟩ | _ <;> simp_all
  · exact .inr (h.seq hk)

theorem seq_assoc (o : Out γ α) (f : Str → α → Out γ β) (g : Str → β → Out γ δ) :
    (o.seq f).seq g = o.seq fun r a => (f r a).seq g := by cases o <;> rfl

/-- A comma, and then what the parser makes of the next piece. -/
theorem fits_comma {m : γ} {p : Parser γ α} {k : Str → α → Out γ β} {qs : List Str} {f : Option γ}
    (h0 : qs = [] → f = some m)
    (h : ∀ q qs', qs = q :: qs' → ((p (q ++ preC ',' qs')).out.seq k).Fits f) :
    ((preceded (context m comma) p (preC ',' qs)).out.seq k).Fits f := by
  cases qs with
  | nil => run; rw [h0 rfl]; exact .inr rfl
  | cons q qs' => run; exact h q qs' rfl

/-- A piece, and then the next columns. -/
theorem fits_field {m i : γ} {g : Str → Res ε α} {q : Str} {qs : List Str} {k : Str → α → Out γ β}
    {cs : List (Column γ)} (hq : NoC ',' q)
    (h : ∀ a, g q = .ok a → (k (preC ',' qs) a).Fits (firstFault cs qs)) :
    ((context i (commaFieldType g) (q ++ preC ',' qs)).out.seq k).Fits
      (firstFault (⟨m, i, readable g, false⟩ :: cs) (q :: qs)) := by
  rw [out_context, out_commaFieldType _ hq]
  unfold firstFault
  cases hr : g q with
  | ok a => run; rw [if_pos (by simpa using readable_ok hr)]; exact h a hr
  | err e => run; rw [if_neg (by simp [readable_err hr])]; exact .inr rfl
  | panic => exact .inl rfl

/-- A column, and then the next columns. -/
theorem fits_column {m i : γ} {g : Str → Res ε α} {qs : List Str} {k : Str → α → Out γ β} {cs : List (Column γ)}
    (hqs : ∀ q ∈ qs, NoC ',' q)
    (h : ∀ q qs' a, qs = q :: qs' → g q = .ok a → (k (preC ',' qs') a).Fits (firstFault cs qs')) :
    ((preceded (context m comma) (context i (commaFieldType g)) (preC ',' qs)).out.seq k).Fits
      (firstFault (⟨m, i, readable g, false⟩ :: cs) qs) := by
  refine fits_comma (by rintro rfl; rfl) fun q qs' hq => ?_
  subst hq
  exact fits_field (hqs q (by simp)) fun a ha => h q qs' a rfl ha

/-- A column that takes anything. -/
theorem fits_free {D : Type} [DecLib D] {m i : γ} {qs : List Str} {k : Str → Decimal D → Out γ β} {cs : List (Column γ)}
    (hqs : ∀ q ∈ qs, NoC ',' q)
    (h : ∀ q qs', qs = q :: qs' → (k (preC ',' qs') (Decimal.ofStr q)).Fits (firstFault cs qs')) :
    ((preceded (context m comma) (context i (commaFieldType Decimal.parse)) (preC ',' qs)).out.seq k).Fits
      (firstFault (freeColumn m :: cs) qs) := by
  refine fits_comma (by rintro rfl; rfl) fun q qs' hq => ?_
  subst hq
  rw [out_context, out_commaFieldType _ (hqs q (by simp))]
  unfold firstFault freeColumn
  exact h q qs' rfl

/-- A column of text. -/
theorem fits_text {m : γ} {qs : List Str} {k : Str → Str → Out γ β} {cs : List (Column γ)}
    (hqs : ∀ q ∈ qs, NoC ',' q)
    (h : ∀ q qs', qs = q :: qs' → (k (preC ',' qs') q).Fits (firstFault cs qs')) :
    ((preceded (context m comma) commaField (preC ',' qs)).out.seq k).Fits
      (firstFault (freeColumn m :: cs) qs) := by
  refine fits_comma (by rintro rfl; rfl) fun q qs' hq => ?_
  subst hq
  rw [out_commaField (hqs q (by simp))]
  unfold firstFault freeColumn
  exact h q qs' rfl

/-- A last column that takes the rest of the line. -/
theorem fits_rest {m i : γ} {g : Str → Res ε α} {qs : List Str} {k : Str → α → Out γ β}
    (h : ∀ a, ∃ r b, k [] a = .ok r b) :
    ((preceded (context m comma) (context i (restType g)) (preC ',' qs)).out.seq k).Fits
      (firstFault [⟨m, i, readable g, true⟩] qs) := by
  refine fits_comma (by rintro rfl; rfl) fun q qs' hq => ?_
  subst hq
  rw [out_context, out_restType, piece_join]
  unfold firstFault
  simp only [if_true]
  cases hr : g (join [','] (q :: qs')) with
  | ok a =>
    run; rw [if_pos (by simpa using readable_ok hr), firstFault_nil]
    obtain ⟨r, b, hk⟩ := h a; rw [hk]; exact .inr trivial
  | err e => run; rw [if_neg (by simp [readable_err hr])]; exact .inr rfl
  | panic => exact .inl rfl

end

namespace Ev
variable {D : Type}

theorem fits_startTime {β : Type} (v : Nat) {q : Str} {qs : List Str} {k : Str → Int32 → Out NEErr β} {cs : List (Column NEErr)}
    (hq : NoC ',' q) (h : ∀ a, (k (preC ',' qs) a).Fits (firstFault cs qs)) :
    ((startTimeOffset v (q ++ preC ',' qs)).out.seq k).Fits (firstFault (startTimeColumn :: cs) (q :: qs)) := by
  unfold startTimeOffset startTimeColumn
  rw [out_context, out_mapP, out_commaFieldType _ hq, firstFault]
  simp only [Bool.false_eq_true, if_false]
  cases hr : parseI32 q with
  | ok a =>
    rw [if_pos (readable_ok hr)]
    run
    cases shiftUp v a with
    | none => exact .inl rfl
    | some b => run; exact h b
  | err e => rw [if_neg (by simp [readable_err hr])]; run; exact .inr rfl
  | panic => exact .inl rfl

theorem fits_endTime {β : Type} (v : Nat) {qs : List Str} {k : Str → Int32 → Out NEErr β}
    (h : ∀ a, ∃ r b, k [] a = .ok r b) :
    ((preceded (context .missingEndTime comma) (endTimeOffset v) (preC ',' qs)).out.seq k).Fits
      (firstFault [⟨.missingEndTime, .invalidEndTime, readable parseI32, true⟩] qs) := by
  refine fits_comma (by rintro rfl; rfl) fun q qs' hq => ?_
  subst hq
  unfold endTimeOffset
  rw [out_context, out_mapP, out_restType, piece_join, firstFault]
  simp only [if_true, firstFault_nil]
  cases hr : parseI32 (join [','] (q :: qs')) with
  | ok a =>
    rw [if_pos (readable_ok hr)]
    run
    cases shiftUp v a with
    | none => exact .inl rfl
    | some b => run; obtain ⟨r, b, hk⟩ := h b; rw [hk]; exact .inr trivial
  | err e => rw [if_neg (by simp [readable_err hr])]; run; exact .inr rfl
  | panic => exact .inl rfl

theorem headerP_out {h : Str} {a b : Str} (hh : h = a ∨ h = b ∧ a.isPrefixOf h = false) (hab : a.isPrefixOf b = false)
    (X : Str) (ha : h = b → a.isPrefixOf (b ++ X) = false) :
    (headerP a b (h ++ X)).out = .ok X (decide (h = a)) := by
  unfold headerP
  have hne : b ≠ a := by
    rintro rfl
    rw [List.isPrefixOf_iff_prefix.2 (List.prefix_refl b)] at hab
    cases hab
  rw [out_alt_cons, out_alt_one, out_map, out_context, out_map, out_tag, out_tag]
  rcases hh with rfl | ⟨rfl, _⟩
  · rw [if_pos (List.isPrefixOf_iff_prefix.2 (List.prefix_append _ _)), List.drop_left]; simp
  · rw [ha rfl, if_pos (List.isPrefixOf_iff_prefix.2 (List.prefix_append _ _)), List.drop_left]
    run
    simp [hne]

variable [DecLib D]

theorem filePos_fits {β : Type} {qs : List Str} {k : Str → (FilePath × Option (Position D)) → Out NEErr β}
    (hqs : ∀ q ∈ qs, NoC ',' q) (h : ∀ r a, ∃ r' b, k r a = .ok r' b) :
    ((preceded (context .missingFileName comma) fileNameAndPosition (preC ',' qs)).out.seq k).Fits
      (firstFault (filePosColumns (qs.drop 1)) qs) := by
  refine Out.Fits.seq ?_ h
  unfold filePosColumns
  cases qs with
  | nil => exact .inr rfl
  | cons q qs =>
    have h1 : ∀ x ∈ qs, NoC ',' x := fun x hx => hqs x (by simp [hx])
    unfold fileNameAndPosition
    rw [out_preceded, out_context, out_comma_cons, Out.label_ok, Out.seq_ok, out_pair, out_commaField (hqs q (by simp)), Out.seq_ok]
    refine Out.Fits.seq ?_ fun r a => ⟨_, _, rfl⟩
    rw [out_map]
    refine Out.Fits.seq ?_ fun r a => ⟨_, _, rfl⟩
    rw [out_alt_cons, out_alt_one, firstFault]
    simp only [freeColumn, anyText, if_true, Bool.false_eq_true, if_false]
    match qs, h1 with
    | [], _ => exact .inr trivial
    | [x], h1 =>
      run
      rw [out_commaFieldType _ (h1 x (by simp))]
      exact .inr rfl
    | x :: y :: qs, h1 =>
      run
      rw [out_commaFieldType _ (h1 x (by simp))]
      exact .inr trivial

theorem fits_head {α : Type} {h : Str} {w m : NEErr} {K : Parser NEErr α} {qs : List Str} {f : Option NEErr}
    (h0 : qs = [] → f = some m) (hK : ∀ q qs', qs = q :: qs' → (K (q ++ preC ',' qs')).out.Fits f) :
    (preceded (pair (context w (tag h)) (context m comma)) K (h ++ preC ',' qs)).out.Fits f := by
  rw [out_preceded, out_pair, out_context, out_tag, if_pos (List.isPrefixOf_iff_prefix.2 (List.prefix_append _ _)), List.drop_left,
    Out.label_ok, Out.seq_ok, out_context]
  cases qs with
  | nil => run; rw [h0 rfl]; exact .inr rfl
  | cons q qs => run; exact hK q qs rfl

theorem background_fault {qs : List Str} (hqs : ∀ q ∈ qs, NoC ',' q) {e : NEErr} :
    (Background.parse (c!"0" ++ preC ',' qs) : Res NEErr (Background D)) = .err e ↔
      (Background.parse (c!"0" ++ preC ',' qs) : Res NEErr (Background D)) ≠ .panic ∧ firstFault (backgroundColumns qs) qs = some e := by
  unfold Background.parse
  rw [toRes_out]
  refine Out.Fits.toRes (fits_head (by rintro rfl; rfl) fun q qs' hq => ?_)
  subst hq
  have h1 : ∀ x ∈ qs', NoC ',' x := fun x hx => hqs x (by simp [hx])
  unfold backgroundColumns startTimeColumn
  rw [out_bind]
  refine fits_field (hqs q (by simp)) fun a _ => ?_
  rw [out_bind]
  exact filePos_fits h1 fun r a => ⟨_, _, rfl⟩

theorem legacy_fault {hd : Str} {qs : List Str} (hqs : ∀ q ∈ qs, NoC ',' q) {e : NEErr} :
    (SpriteLegacy.parse hd (hd ++ preC ',' qs) : Res NEErr (SpriteLegacy D)) = .err e ↔
      (SpriteLegacy.parse hd (hd ++ preC ',' qs) : Res NEErr (SpriteLegacy D)) ≠ .panic ∧ firstFault (legacyColumns qs) qs = some e := by
  unfold SpriteLegacy.parse
  rw [toRes_out]
  refine Out.Fits.toRes (fits_head (by rintro rfl; rfl) fun q qs' hq => ?_)
  subst hq
  have h1 : ∀ x ∈ qs', NoC ',' x := fun x hx => hqs x (by simp [hx])
  unfold legacyColumns
  rw [out_bind]
  refine fits_field (hqs q (by simp)) fun a _ => ?_
  rw [out_bind]
  refine fits_column h1 fun q2 qs2 a2 hq2 _ => ?_
  subst hq2
  rw [out_bind]
  exact filePos_fits (fun x hx => h1 x (by simp [hx])) fun r a => ⟨_, _, rfl⟩

theorem sampleLegacy_fault {qs : List Str} (hqs : ∀ q ∈ qs, NoC ',' q) {e : NEErr} :
    (SampleLegacy.parse (c!"6" ++ preC ',' qs) : Res NEErr (SampleLegacy D)) = .err e ↔
      (SampleLegacy.parse (c!"6" ++ preC ',' qs) : Res NEErr (SampleLegacy D)) ≠ .panic ∧ firstFault (sampleLegacyColumns qs) qs = some e := by
  unfold SampleLegacy.parse
  rw [toRes_out]
  refine Out.Fits.toRes (fits_head (by rintro rfl; rfl) fun q qs' hq => ?_)
  subst hq
  have h1 : ∀ x ∈ qs', NoC ',' x := fun x hx => hqs x (by simp [hx])
  unfold sampleLegacyColumns
  rw [out_bind, out_context, out_commaFieldType _ (hqs q (by simp))]
  simp only [Decimal.parse, Out.ofRes_ok, Out.label_ok, Out.seq_ok, List.cons_append, List.nil_append]
  rw [firstFault]
  simp only [freeColumn, anyText, if_true, Bool.false_eq_true, if_false]
  rw [out_bind]
  refine fits_column h1 fun q2 qs2 a2 hq2 _ => ?_
  subst hq2
  have h2 : ∀ x ∈ qs2, NoC ',' x := fun x hx => h1 x (by simp [hx])
  rw [out_bind]
  refine fits_text h2 fun q3 qs3 hq3 => ?_
  subst hq3
  simp only [List.drop_succ_cons, List.drop_zero]
  rw [out_bind, out_alt_cons, out_alt_one, out_map, out_map, out_eof]
  cases qs3 with
  | nil => exact .inr trivial
  | cons x qs3 =>
    rw [if_neg (by simp [preC_cons]), if_neg (by simp)]
    simp only [Out.seq_soft, Out.orElse_soft]
    rw [seq_assoc]
    exact fits_rest fun a => ⟨_, _, rfl⟩

theorem video_fault {v : Nat} {h : Str} {qs : List Str} (hh : h = c!"1" ∨ h = c!"Video") (hqs : ∀ q ∈ qs, NoC ',' q) {e : NEErr} :
    (Video.parse v (h ++ preC ',' qs) : Res NEErr (Video D)) = .err e ↔
      (Video.parse v (h ++ preC ',' qs) : Res NEErr (Video D)) ≠ .panic ∧ firstFault (backgroundColumns qs) qs = some e := by
  unfold Video.parse
  rw [toRes_out]
  refine Out.Fits.toRes ?_
  rw [out_bind, headerP_out (by rcases hh with rfl | rfl <;> simp [List.isPrefixOf]) rfl _ (fun _ => rfl), Out.seq_ok, out_bind]
  refine fits_comma (by rintro rfl; rfl) fun q qs' hq => ?_
  subst hq
  have h1 : ∀ x ∈ qs', NoC ',' x := fun x hx => hqs x (by simp [hx])
  unfold backgroundColumns
  refine fits_startTime v (hqs q (by simp)) fun a => ?_
  rw [out_bind]
  exact filePos_fits h1 fun r a => ⟨_, _, rfl⟩

omit [DecLib D] in
theorem break_fault {v : Nat} {h : Str} {qs : List Str} (hh : h = c!"2" ∨ h = c!"Break") (hqs : ∀ q ∈ qs, NoC ',' q) {e : NEErr} :
    Break.parse v (h ++ preC ',' qs) = .err e ↔
      Break.parse v (h ++ preC ',' qs) ≠ .panic ∧ firstFault breakColumns qs = some e := by
  unfold Break.parse
  rw [toRes_out]
  refine Out.Fits.toRes ?_
  rw [out_bind, headerP_out (by rcases hh with rfl | rfl <;> simp [List.isPrefixOf]) rfl _ (fun _ => rfl), Out.seq_ok, out_bind]
  refine fits_comma (by rintro rfl; rfl) fun q qs' hq => ?_
  subst hq
  unfold breakColumns
  refine fits_startTime v (hqs q (by simp)) fun a => ?_
  rw [out_bind]
  exact fits_endTime v fun a => ⟨_, _, rfl⟩

omit [DecLib D] in
theorem transform_fault {v : Nat} {qs : List Str} (hqs : ∀ q ∈ qs, NoC ',' q) {e : NEErr} :
    ColourTransformation.parse v (c!"3" ++ preC ',' qs) = .err e ↔
      ColourTransformation.parse v (c!"3" ++ preC ',' qs) ≠ .panic ∧ firstFault transformColumns qs = some e := by
  unfold ColourTransformation.parse
  rw [toRes_out]
  refine Out.Fits.toRes ?_
  rw [out_bind, out_preceded, out_pair, out_context, out_tag, if_pos (List.isPrefixOf_iff_prefix.2 (List.prefix_append _ _)), List.drop_left,
    Out.label_ok, Out.seq_ok, out_context]
  cases qs with
  | nil => exact .inr rfl
  | cons q qs =>
    have h1 : ∀ x ∈ qs, NoC ',' x := fun x hx => hqs x (by simp [hx])
    rw [out_comma_cons]
    simp only [Out.label_ok, Out.seq_ok]
    unfold transformColumns
    refine fits_startTime v (hqs q (by simp)) fun a => ?_
    rw [out_bind]
    refine fits_column h1 fun q2 qs2 a2 hq2 _ => ?_
    subst hq2
    rw [out_bind]
    refine fits_column (fun x hx => h1 x (by simp [hx])) fun q3 qs3 a3 hq3 _ => ?_
    rw [out_bind]
    exact fits_rest fun a => ⟨_, _, rfl⟩

omit [DecLib D] in
theorem audioLayer_fits {β : Type} {qs : List Str} {k : Str → AudioLayer → Out NEErr β} {cs : List (Column NEErr)}
    (hqs : ∀ q ∈ qs, NoC ',' q)
    (h : ∀ q qs' a, qs = q :: qs' → (k (preC ',' qs') a).Fits (firstFault cs qs')) :
    ((preceded (context .missingLayer comma) (context .invalidLayer
        (mapOpt (context .invalidLayer (commaFieldType parseUsize)) AudioLayer.ofCode)) (preC ',' qs)).out.seq k).Fits
      (firstFault (⟨.missingLayer, .invalidLayer, audioLayerText, false⟩ :: cs) qs) := by
  refine fits_comma (by rintro rfl; rfl) fun q qs' hq => ?_
  subst hq
  rw [out_context, out_mapOpt, out_context, out_commaFieldType _ (hqs q (by simp)), firstFault]
  simp only [Bool.false_eq_true, if_false, audioLayerText]
  cases hr : parseUsize q with
  | err e => exact .inr rfl
  | panic => exact .inl rfl
  | ok n =>
    simp only [Out.ofRes_ok, Out.label_ok, Out.seq_ok, audioLayer_code]
    by_cases hn : n.toNat < audioLayers.length
    · rw [List.getElem?_eq_getElem hn]
      simp only [Out.label_ok, Out.seq_ok, hn, decide_true, if_true]
      exact h q qs' _ rfl
    · rw [List.getElem?_eq_none (by omega)]
      simp only [hn, decide_false]
      exact .inr rfl

omit [DecLib D] in
theorem audio_fault {p : Str} {qs : List Str} (hp : NoC ',' p) (hqs : ∀ q ∈ qs, NoC ',' q)
    (hk : (c!"Sample").isPrefixOf p = true) {e : NEErr} :
    AudioSample.parse (p ++ preC ',' qs) = .err e ↔ 
      AudioSample.parse (p ++ preC ',' qs) ≠ .panic ∧ firstFault (audioColumns qs) (if p = c!"Sample" then qs else []) = some e := by
  obtain ⟨t, rfl⟩ := List.isPrefixOf_iff_prefix.1 hk
  unfold AudioSample.parse
  rw [if_neg (by simp), toRes_out]
  refine Out.Fits.toRes ?_
  rw [out_bind, out_preceded, out_pair, out_context, out_tag, if_pos (by
    rw [List.append_assoc]; exact List.isPrefixOf_iff_prefix.2 (List.prefix_append _ _)), List.append_assoc, List.drop_left,
    Out.label_ok, Out.seq_ok, out_context]
  cases t with
  | cons c t =>
    rw [if_neg (by simp), out_comma_not (s := c :: t ++ preC ',' qs) (by
      intro r hr; injection hr with hr; exact noC_ne hp (by simp) hr)]
    exact .inr rfl
  | nil =>
    rw [List.append_nil, if_pos rfl, List.nil_append]
    cases qs with
    | nil => exact .inr rfl
    | cons q qs =>
      have h1 : ∀ x ∈ qs, NoC ',' x := fun x hx => hqs x (by simp [hx])
      rw [out_comma_cons]
      simp only [Out.label_ok, Out.seq_ok]
      unfold audioColumns
      refine fits_field (hqs q (by simp)) fun a _ => ?_
      rw [out_bind]
      refine audioLayer_fits h1 fun q2 qs2 a2 hq2 => ?_
      subst hq2
      rw [out_bind]
      refine fits_text (fun x hx => h1 x (by simp [hx])) fun q3 qs3 hq3 => ?_
      subst hq3
      simp only [List.drop_succ_cons, List.drop_zero]
      rw [out_bind, out_alt_cons, out_alt_one, out_map, out_eof]
      cases qs3 with
      | nil => exact .inr trivial
      | cons x qs3 =>
        rw [if_neg (by simp [preC_cons]), if_neg (by simp)]
        simp only [Out.seq_soft, Out.orElse_soft]
        refine fits_column (fun y hy => h1 y (by simp only [List.mem_cons] at *; exact .inr (.inr hy))) fun q4 qs4 a4 hq4 _ => ?_
        rw [firstFault_nil]
        exact .inr trivial

omit [DecLib D] in
theorem audio_wrong {p : Str} {qs : List Str} (hk : (c!"Sample").isPrefixOf p = false) :
    AudioSample.parse (p ++ preC ',' qs) = .err .wrongEventType := by
  unfold AudioSample.parse
  split
  · rfl
  · rw [toRes_out, out_bind, out_preceded, out_pair, out_context, out_tag, prefix_pieces (SB.Command.NoC_hdr (by rfl)), hk]
    rfl

/-- The error of the first faulty column is one of the two the column names. -/
theorem firstFault_ne {E : Type} {e : E} {cs : List (Column E)} (h : ∀ c ∈ cs, c.missing ≠ e ∧ c.invalid ≠ e) :
    ∀ qs, firstFault cs qs ≠ some e := by
  induction cs with
  | nil => intro qs; rw [firstFault_nil]; nofun
  | cons c cs ih =>
    intro qs
    have h1 := h c (by simp)
    cases qs with
    | nil => simp [firstFault, h1]
    | cons q qs =>
      have h2 := ih fun x hx => h x (by simp [hx])
      simp only [firstFault]
      (repeat' split) <;> simp [h1, h2]

omit [DecLib D] in
theorem audio_right (qs ps : List Str) : firstFault (audioColumns qs) ps ≠ some .wrongEventType := by
  refine firstFault_ne ?_ ps
  unfold audioColumns freeColumn
  split <;> simp

end Ev

namespace SB.Object
variable {D : Type} [DecLib D]

omit [DecLib D] in
theorem head_fits {β : Type} {qs : List Str} (hqs : ∀ q ∈ qs, NoC ',' q) {k : Str → Layer × Origin × FilePath → Out ObjErr β}
    {cs : List (Column ObjErr)} (h : ∀ x, 3 ≤ qs.length → (k (preC ',' (qs.drop 3)) x).Fits (firstFault cs (qs.drop 3))) :
    ((headP (preC ',' qs)).out.seq k).Fits (firstFault ([⟨.missingLayer, .invalidLayer, readable Layer.parse, false⟩,
    ⟨.missingOrigin, .invalidOrigin, readable Origin.parse, false⟩, freeColumn .missingFilePath] ++ cs) qs) := by
  unfold headP
  rw [out_bind, seq_assoc]
  refine fits_column hqs fun q1 qs1 a1 hq1 _ => ?_
  subst hq1
  have h1 : ∀ x ∈ qs1, NoC ',' x := fun x hx => hqs x (by simp [hx])
  rw [out_bind, seq_assoc]
  refine fits_column h1 fun q2 qs2 a2 hq2 _ => ?_
  subst hq2
  rw [out_bind, seq_assoc]
  refine fits_text (fun x hx => h1 x (by simp [hx])) fun q3 qs3 hq3 => ?_
  subst hq3
  exact h _ (by simp)

theorem position_fits {β : Type} {qs : List Str} (hqs : ∀ q ∈ qs, NoC ',' q) {k : Str → Position D → Out ObjErr β}
    {cs : List (Column ObjErr)} (h : ∀ x, (k (preC ',' (qs.drop 2)) x).Fits (firstFault cs (qs.drop 2))) :
    ((positionP (preC ',' qs)).out.seq k).Fits (firstFault ([freeColumn .missingPositionX, freeColumn .missingPositionY] ++ cs) qs) := by
  unfold positionP
  rw [out_bind, seq_assoc]
  refine fits_free hqs fun q1 qs1 hq1 => ?_
  subst hq1
  have h1 : ∀ x ∈ qs1, NoC ',' x := fun x hx => hqs x (by simp [hx])
  rw [out_bind, seq_assoc]
  refine fits_free h1 fun q2 qs2 hq2 => ?_
  subst hq2
  exact h _

theorem loopType_fits (qs : List Str) : (loopTypeP (preC ',' qs)).out.Fits none := by
  unfold loopTypeP
  cases qs with
  | nil => exact .inr trivial
  | cons q qs =>
    rw [out_alt_cons, out_alt_one]
    run
    cases hr : LoopType.parse (q ++ preC ',' qs) with
    | ok a => exact .inr trivial
    | panic => exact .inl rfl
    | err e =>
      refine .inl ?_
      run
      rw [out_nothing]
      have : blanks (preC ',' (q :: qs)) = false := by rw [preC_cons]; rfl
      rw [this]
      rfl

theorem head_not {α : Type} {s : Str} (hs : NotComma s) (k : Layer × Origin × FilePath → Parser ObjErr α) :
    (cut (headP.bind k) s).out.Agrees (some .missingLayer) := by
  unfold headP
  run
  rw [out_comma_not hs]
  rfl

theorem decP_readable : readable (decP : Str → Res Unit D) = fun s => (DecLib.parse s : Option D).isSome := by
  funext s
  unfold readable decP
  cases (DecLib.parse s : Option D) <;> rfl

/-- A keyword, and then what the parser makes of the text after it. -/
theorem fits_header {γ α β : Type} {k p : Str} {qs : List Str} {K : Parser γ α} {f : List Str → Option γ} {m : γ} {g : α → β}
    (hp : NoC ',' p) (hk : k.isPrefixOf p = true)
    (h0 : ∀ s, NotComma s → (K s).out.Agrees (some m)) (hm : f [] = some m)
    (h : (K (preC ',' qs)).out.Fits (f qs)) :
    (((preceded (tag k) K).map g) (p ++ preC ',' qs)).out.Fits (f (if p = k then qs else [])) := by
  obtain ⟨t, rfl⟩ := List.isPrefixOf_iff_prefix.1 hk
  rw [out_map]
  refine Out.Fits.seq ?_ fun r a => ⟨_, _, rfl⟩
  rw [out_preceded, out_tag, if_pos (by rw [List.append_assoc]; exact List.isPrefixOf_iff_prefix.2 (List.prefix_append _ _)), Out.seq_ok,
    List.append_assoc, List.drop_left]
  cases t with
  | nil => simpa using h
  | cons c t =>
    rw [if_neg (by simp), hm]
    refine (h0 _ ?_).fits
    intro r hr
    injection hr with hr
    exact noC_ne hp (by simp) hr

theorem sprite_fault {p : Str} {qs : List Str} (hp : NoC ',' p) (hqs : ∀ q ∈ qs, NoC ',' q)
    (hk : (c!"Sprite").isPrefixOf p = true) {e : ObjErr} :
    (Object.parse (p ++ preC ',' qs) : Res ObjErr (Object D)) = .err e ↔
      (Object.parse (p ++ preC ',' qs) : Res ObjErr (Object D)) ≠ .panic ∧
        firstFault spriteColumns (if p = c!"Sprite" then qs else []) = some e := by
  unfold Object.parse objectP
  rw [toRes_out]
  refine Out.Fits.toRes ?_
  have e1 : ((spriteP : Parser ObjErr (Object D)) (p ++ preC ',' qs)).out =
      (((preceded (tag c!"Sprite") (cut (headP.bind fun x => positionP.bind fun pos => ret (x.1, x.2.1, x.2.2, pos)))).map
        fun x : Layer × Origin × FilePath × Position D => (⟨x.1, x.2.1, x.2.2.2, .sprite x.2.2.1, []⟩ : Object D)) (p ++ preC ',' qs)).out := by
    unfold spriteP
    rw [out_preceded, out_map, out_preceded, seq_assoc]
    congr 1
    funext r a
    rw [out_map]
  rw [alt_take]
  · rw [e1]
    refine fits_header (f := firstFault spriteColumns) (m := .missingLayer) hp hk (fun s hs => head_not hs _) rfl ?_
    rw [out_cut, out_bind]
    refine Out.Fits.cut (head_fits hqs fun x hl => ?_)
    rw [out_bind]
    exact position_fits (cs := []) (SB.Command.noC_drop hqs 3) fun x => by rw [firstFault_nil]; exact .inr trivial
  · rw [e1]; exact final_header hk

theorem animation_fault {p : Str} {qs : List Str} (hp : NoC ',' p) (hqs : ∀ q ∈ qs, NoC ',' q)
    (hk : (c!"Animation").isPrefixOf p = true) {e : ObjErr} :
    (Object.parse (p ++ preC ',' qs) : Res ObjErr (Object D)) = .err e ↔
      (Object.parse (p ++ preC ',' qs) : Res ObjErr (Object D)) ≠ .panic ∧
        firstFault (animationColumns D) (if p = c!"Animation" then qs else []) = some e := by
  have hs : (c!"Sprite").isPrefixOf p = false := by
    obtain ⟨t, rfl⟩ := List.isPrefixOf_iff_prefix.1 hk
    rfl
  unfold Object.parse objectP
  rw [toRes_out]
  refine Out.Fits.toRes ?_
  rw [alt_skip (p := spriteP) (preceded_err (tag_err (by rw [prefix_pieces (SB.Command.NoC_hdr (by rfl))]; exact hs))),
    alt_take (p := animationP) (final_header hk)]
  refine fits_header (f := firstFault (animationColumns D)) (m := .missingLayer) hp hk (fun s hs => head_not hs _) rfl ?_
  rw [out_cut, out_bind]
  refine Out.Fits.cut (head_fits hqs fun x hl => ?_)
  rw [out_bind]
  have h3 := SB.Command.noC_drop hqs 3
  refine position_fits h3 fun x => ?_
  have h5 := SB.Command.noC_drop h3 2
  rw [out_bind]
  refine fits_column h5 fun q6 qs6 a6 hq6 _ => ?_
  have h6 : ∀ x ∈ qs6, NoC ',' x := fun x hx => h5 x (by rw [hq6]; simp [hx])
  rw [out_bind, ← decP_readable]
  refine fits_column h6 fun q7 qs7 a7 hq7 _ => ?_
  rw [firstFault_nil, out_bind]
  exact Out.Fits.seq (loopType_fits qs7) fun r a => ⟨_, _, rfl⟩

end SB.Object

namespace Ev
variable {D : Type} [DecLib D]

theorem mapEv_err {ε α β δ : Type} {f : α → β} {g : ε → δ} {x : Res ε α} {o : Option ε}
    (h : ∀ e, x = .err e ↔ x ≠ .panic ∧ o = some e) {d : δ} :
    mapEv f g x = .err d ↔ x ≠ .panic ∧ o.map g = some d := by
  cases x with
  | ok a =>
    have : o = none := by
      cases o with
      | none => rfl
      | some e => exact absurd ((h e).2 ⟨nofun, rfl⟩) nofun
    simp [mapEv, this]
  | err e =>
    have := ((h e).1 rfl).2
    simp [mapEv, this]
  | panic => simp [mapEv]

theorem event_fault {v : Nat} {l p : Str} {qs : List Str} (hs : splitOnC ',' l = p :: qs) {e : EvErr} :
    (parseEvent v l : Res EvErr (Event D)) = .err e ↔ ¬EvPanics D v l ∧ evFault D p qs = some e := by
  rw [← event_panics]
  obtain ⟨rfl, hp, hqs⟩ := splitOnC_iff.1 hs
  by_cases hpan : (parseEvent v (p ++ preC ',' qs) : Res EvErr (Event D)) = .panic
  · simp [hpan]
  simp only [hpan, not_false_eq_true, true_and]
  unfold evFault
  by_cases h0 : p = c!"0"
  · subst h0
    rw [if_pos rfl]
    unfold parseEvent at hpan ⊢
    rw [kind_head _ (.inl ⟨rfl, rfl⟩)] at hpan ⊢
    simp only [mapEv_panic] at hpan ⊢
    rw [mapEv_err fun e => background_fault hqs]
    simp only [ne_eq, hpan, not_false_eq_true, true_and]
  rw [if_neg h0]
  by_cases h1 : p = c!"1" ∨ p = c!"Video"
  · rw [if_pos h1]
    unfold parseEvent at hpan ⊢
    rw [kind_head _ (.inr (.inl ⟨h1, rfl⟩))] at hpan ⊢
    simp only [mapEv_panic] at hpan ⊢
    rw [mapEv_err fun e => video_fault h1 hqs]
    simp only [ne_eq, hpan, not_false_eq_true, true_and]
  rw [if_neg h1]
  by_cases h2 : p = c!"2" ∨ p = c!"Break"
  · rw [if_pos h2]
    unfold parseEvent at hpan ⊢
    rw [kind_head _ (.inr (.inr (.inl ⟨h2, rfl⟩)))] at hpan ⊢
    simp only [mapEv_panic] at hpan ⊢
    rw [mapEv_err fun e => break_fault h2 hqs]
    simp only [ne_eq, hpan, not_false_eq_true, true_and]
  rw [if_neg h2]
  by_cases h3 : p = c!"3"
  · subst h3
    rw [if_pos rfl]
    unfold parseEvent at hpan ⊢
    rw [kind_head _ (.inr (.inr (.inr (.inl ⟨rfl, rfl⟩))))] at hpan ⊢
    simp only [mapEv_panic] at hpan ⊢
    rw [mapEv_err fun e => transform_fault hqs]
    simp only [ne_eq, hpan, not_false_eq_true, true_and]
  rw [if_neg h3]
  by_cases h4 : p = c!"4"
  · subst h4
    rw [if_pos rfl]
    unfold parseEvent at hpan ⊢
    rw [kind_head _ (.inr (.inr (.inr (.inr (.inl ⟨rfl, rfl⟩)))))] at hpan ⊢
    simp only [mapEv_panic] at hpan ⊢
    rw [mapEv_err fun e => legacy_fault hqs]
    simp only [ne_eq, hpan, not_false_eq_true, true_and]
  rw [if_neg h4]
  by_cases h5 : p = c!"5"
  · subst h5
    rw [if_pos rfl]
    unfold parseEvent at hpan ⊢
    rw [kind_head _ (.inr (.inr (.inr (.inr (.inr (.inl ⟨rfl, rfl⟩))))))] at hpan ⊢
    simp only [mapEv_panic] at hpan ⊢
    rw [mapEv_err fun e => legacy_fault hqs]
    simp only [ne_eq, hpan, not_false_eq_true, true_and]
  rw [if_neg h5]
  by_cases h6 : p = c!"6"
  · subst h6
    rw [if_pos rfl]
    unfold parseEvent at hpan ⊢
    rw [kind_head _ (.inr (.inr (.inr (.inr (.inr (.inr (.inl ⟨rfl, rfl⟩)))))))] at hpan ⊢
    simp only [mapEv_panic] at hpan ⊢
    rw [mapEv_err fun e => sampleLegacy_fault hqs]
    simp only [ne_eq, hpan, not_false_eq_true, true_and]
  rw [if_neg h6]
  have hk : kindOf (p ++ preC ',' qs) = some .other := by
    have hh : p ∉ eventHeaders := by
      simp only [eventHeaders, List.mem_cons, List.not_mem_nil, or_false]
      rintro (rfl | rfl | rfl | rfl | rfl | rfl | rfl | rfl | rfl) <;> simp at *
    have hb : ¬∃ h ∈ eventHeaders, ∃ c t, p = h ++ c :: t := by
      rintro ⟨h, hh', c, t, rfl⟩
      apply hpan
      rw [event_panics, List.append_assoc, List.cons_append]
      exact .header hh' (noC_ne hp (by simp))
    refine kind_other fun h hm => ?_
    cases hx : h.isPrefixOf (p ++ preC ',' qs) with
    | false => rfl
    | true =>
      exfalso
      obtain ⟨r, hr⟩ := List.isPrefixOf_iff_prefix.1 hx
      obtain ⟨y, rfl, _⟩ := within_first (header_noC hm) hr.symm
      cases y with
      | nil => rw [List.append_nil] at hh; exact hh hm
      | cons c t => exact hb ⟨h, hm, c, t, rfl⟩
  unfold parseEvent at hpan ⊢
  rw [hk] at hpan ⊢
  simp only [parseOther_panic] at hpan ⊢
  have other : ∀ o : Option ObjErr, o ≠ some .unknownObjectType → (∀ e, (Object.parse (p ++ preC ',' qs) : Res ObjErr (Object D)) = .err e ↔
      (Object.parse (p ++ preC ',' qs) : Res ObjErr (Object D)) ≠ .panic ∧ o = some e) →
      ((parseOther (p ++ preC ',' qs) : Res EvErr (Event D)) = .err e ↔ o.map .object = some e) := by
    intro o hne h
    unfold parseOther
    cases hr : (Object.parse (p ++ preC ',' qs) : Res ObjErr (Object D)) with
    | panic => exact absurd hr hpan
    | ok a =>
      rw [hr] at h
      cases o with
      | none => simp
      | some e => exact absurd ((h e).2 ⟨nofun, rfl⟩) nofun
    | err x =>
      rw [hr] at h
      have := ((h x).1 rfl).2
      subst this
      have hx : x ≠ .unknownObjectType := fun hx => hne (by rw [hx])
      cases x <;> simp_all
  by_cases h7 : (c!"Sprite").isPrefixOf p = true
  · rw [if_pos h7]
    refine other _ ?_ fun e => SB.Object.sprite_fault hp hqs h7
    exact firstFault_ne (by simp [spriteColumns, freeColumn]) _
  rw [if_neg h7]
  by_cases h8 : (c!"Animation").isPrefixOf p = true
  · rw [if_pos h8]
    refine other _ ?_ fun e => SB.Object.animation_fault hp hqs h8
    exact firstFault_ne (by simp [animationColumns, spriteColumns, freeColumn]) _
  rw [if_neg h8]
  have hun := SB.Object.object_unknown (D := D) (p := p) (qs := qs) (by
    rw [prefix_pieces (SB.Command.NoC_hdr (by rfl))]; exact Bool.eq_false_iff.2 h7) (by
    rw [prefix_pieces (SB.Command.NoC_hdr (by rfl))]; exact Bool.eq_false_iff.2 h8)
  unfold parseOther
  rw [hun]
  simp only
  by_cases h9 : (c!"Sample").isPrefixOf p = true
  · rw [if_pos h9]
    have hf := fun e => audio_fault hp hqs h9 (e := e)
    have hne := audio_right qs (if p = c!"Sample" then qs else [])
    generalize firstFault (audioColumns qs) (if p = c!"Sample" then qs else []) = o at hf hne
    have hnp := audioSample_no_panic (p ++ preC ',' qs)
    cases hr : AudioSample.parse (p ++ preC ',' qs) with
    | panic => exact absurd hr hnp
    | ok a =>
      rw [hr] at hf
      cases o with
      | none => simp
      | some e => exact absurd ((hf e).2 ⟨nofun, rfl⟩) nofun
    | err x =>
      rw [hr] at hf
      have := ((hf x).1 rfl).2
      subst this
      have hx : x ≠ .wrongEventType := fun hx => hne (by rw [hx])
      cases x <;> simp_all
  · rw [if_neg h9, audio_wrong (Bool.eq_false_iff.2 h9)]
    simp

end Ev

section
open Ev
variable {D : Type} [DecLib D] [UniLib]

theorem cmdParse_fault {l p : Str} {qs : List Str} (hl : splitOnC ',' (l.dropWhile fun c => c == ' ' || c == '_') = p :: qs)
    {e : EvErr} : (cmdParse [] l : Res EvErr (Command D)) = .err e ↔
    (HeaderCuts l ∧ ¬CmdPanics (p :: qs)) ∧ ∃ x, cmdFault p qs = some x ∧ e = .command x := by
  unfold cmdParse
  rw [← withoutHeader_iff]
  cases h : withoutHeader l with
  | none => simp
  | some t =>
    have := fun x => SB.Command.parse_err_iff (D := D) (s := l) hl (e := x)
    simp only [substVars]
    constructor
    · intro hx
      cases hy : (Command.parse l : Res CmdErr (Command D)) with
      | panic => rw [hy] at hx; cases hx
      | ok c => rw [hy] at hx; cases hx
      | err x =>
        rw [hy] at hx
        injection hx with hx
        have := (this x).1 hy
        exact ⟨⟨⟨t, rfl⟩, this.1⟩, x, this.2, hx.symm⟩
    · rintro ⟨⟨_, hp⟩, x, hx, rfl⟩
      rw [(this x).2 ⟨hp, hx⟩]
      rfl

/-- A line gives exactly the error of its fault. -/
theorem step_fault {v : Nat} {evs : List (Event D)} {l : Str} {e : EvErr} :
    step v [] evs l = .err e ↔ ¬Blank l ∧ ¬LinePanics v evs l ∧ LineFault evs l e := by
  rw [← step_panics, blank_iff, nonBlank_false]
  unfold step
  by_cases hb : trim l = []
  · simp [hb]
  simp only [hb, not_false_eq_true, true_and, if_false]
  cases hc : stripPrefix c!"//" l with
  | some r =>
    simp only
    refine ⟨nofun, fun h => ?_⟩
    have hl := (SB.TriggerType.stripPrefix_iff).1 hc
    have hp : (c!"//").isPrefixOf l = true := by rw [hl]; rfl
    have hi : indentOf l = 0 := by rw [hl]; rfl
    cases h.2 with
    | event _ h _ _ => rw [hp] at h; cases h
    | noOwner h0 _ => omega
    | command h0 _ _ _ _ => omega
    | deep _ _ hr _ => have := hr.1; simp only at this; omega
  | none =>
    have hp : (c!"//").isPrefixOf l = false := by
      cases hx : (c!"//").isPrefixOf l with
      | false => rfl
      | true =>
        obtain ⟨r, hr⟩ := List.isPrefixOf_iff_prefix.1 hx
        rw [(SB.TriggerType.stripPrefix_iff).2 hr.symm] at hc; cases hc
    simp only
    have hi : (l.takeWhile Command.isIndent).length = indentOf l := rfl
    rw [hi]
    by_cases h0 : indentOf l = 0
    · rw [if_neg (by omega)]
      obtain ⟨p, qs, hl⟩ : ∃ p qs, splitOnC ',' l = p :: qs := by
        cases h : splitOnC ',' l with
        | nil => exact absurd h (splitOnC_ne_nil _ _)
        | cons p qs => exact ⟨p, qs, rfl⟩
      have hf := fun x => event_fault (D := D) (v := v) hl (e := x)
      have hpan := event_panics (D := D) (v := v) (l := l)
      constructor
      · intro h
        cases hx : (parseEvent v l : Res EvErr (Event D)) with
        | panic => rw [hx] at h; cases h
        | ok e => rw [hx] at h; cases h
        | err x =>
          rw [hx] at h
          injection h with h
          subst h
          exact ⟨nofun, .event h0 hp hl ((hf x).1 hx).2⟩
      · rintro ⟨hn, h⟩
        cases h with
        | event _ _ hl' h =>
          rw [hl] at hl'
          injection hl' with h1 h2
          subst h1 h2
          rw [(hf e).2 ⟨fun h' => hn (by rw [hpan.2 h']), h⟩]
        | noOwner h0 _ => omega
        | command h0 _ _ _ _ => omega
        | deep _ _ hr _ => have := hr.1; simp only at this; omega
    · rw [if_pos (by omega)]
      have hpos : 1 ≤ indentOf l := by omega
      unfold stepCmd
      obtain ⟨p, qs, hl⟩ : ∃ p qs, splitOnC ',' (l.dropWhile fun c => c == ' ' || c == '_') = p :: qs := by
        cases h : splitOnC ',' (l.dropWhile fun c => c == ' ' || c == '_') with
        | nil => exact absurd h (splitOnC_ne_nil _ _)
        | cons p qs => exact ⟨p, qs, rfl⟩
      have owned : ∀ {x : Event D} {cs : List (Command D)} {e' : EvErr}, evs.getLast? = some x → x.commands = some cs →
          LineFault evs l e' → ((∃ a, cmdFault p qs = some a ∧ e' = .command a) ∨
            ∃ c : Command D, CmdLineReads l (indentOf l, c) ∧ maxLevel (listing 1 cs) < indentOf l ∧ e' = .push ⟨namedLevel cs, indentOf l⟩) := by
        intro x cs e' hx hcs hf
        cases hf with
        | event h1 _ _ _ => omega
        | noOwner _ h => have := h x hx; rw [hcs] at this; cases this
        | command _ _ _ hl' h =>
          rw [hl] at hl'
          injection hl' with h1 h2
          subst h1 h2
          exact .inl ⟨_, h, rfl⟩
        | deep he hc hr h =>
          rw [hx] at he
          injection he with he
          subst he
          rw [hcs] at hc
          injection hc with hc
          subst hc
          exact .inr ⟨_, hr, h, rfl⟩
      cases he : evs.getLast? with
      | none =>
        simp only
        constructor
        · intro h; injection h with h; subst h; exact ⟨nofun, .noOwner hpos (by rw [he]; exact nofun)⟩
        · rintro ⟨_, h⟩
          cases h with
          | event h1 _ _ _ => omega
          | noOwner _ _ => rfl
          | command _ he' _ _ _ => rw [he] at he'; cases he'
          | deep he' _ _ _ => rw [he] at he'; cases he'
      | some x =>
        simp only
        cases hcs : x.commands with
        | none =>
          simp only
          constructor
          · intro h; injection h with h; subst h
            exact ⟨nofun, .noOwner hpos (by rw [he]; rintro _ ⟨rfl⟩; exact hcs)⟩
          · rintro ⟨_, h⟩
            cases h with
            | event h1 _ _ _ => omega
            | noOwner _ _ => rfl
            | command _ he' hc _ _ => rw [he] at he'; cases he'; rw [hcs] at hc; cases hc
            | deep he' hc _ _ => rw [he] at he'; cases he'; rw [hcs] at hc; cases hc
        | some cs =>
          simp only
          cases hx : (cmdParse [] l : Res EvErr (Command D)) with
          | panic => simp
          | err a =>
            simp only [ne_eq, reduceCtorEq, not_false_eq_true, true_and, Res.err.injEq]
            obtain ⟨_, b, hb, rfl⟩ := (cmdParse_fault hl).1 hx
            constructor
            · rintro rfl; exact .command hpos he (by rw [hcs]; rfl) hl hb
            · intro h
              rcases owned he hcs h with ⟨c, hc, rfl⟩ | ⟨c, hr, _⟩
              · rw [hb] at hc; injection hc with hc; rw [hc]
              · have := (cmdParse_nil (D := D)).2 ⟨hr.2.2.1, hr.2.2.2⟩
                rw [hx] at this; cases this
          | ok c =>
            have hr : CmdLineReads l (indentOf l, c) := ⟨hpos, rfl, (cmdParse_nil.1 hx).1, (cmdParse_nil.1 hx).2⟩
            have hnf : ∀ a, cmdFault p qs ≠ some a := by
              intro a ha
              have hpan := cmdParse_panics (D := D) (l := l)
              have := (cmdParse_fault (D := D) hl (e := .command a)).2 ⟨⟨hr.2.2.1, fun hp' => by
                have := hpan.2 (.inr (by rw [hl]; exact hp'))
                rw [hx] at this; cases this⟩, a, ha, rfl⟩
              rw [hx] at this; cases this
            have hnp := tryPush_no_panic cs c (indentOf l) hpos
            have hok := tryPush_ok_iff c (indentOf l) cs hpos
            have hrep := tryPush_reported cs c (indentOf l)
            simp only
            generalize hq : tryPush cs c (indentOf l) = q at hnp hok hrep
            obtain ⟨cs', r⟩ := q
            cases r with
            | panic => exact absurd rfl hnp
            | ok u =>
              simp only [reduceCtorEq, false_iff, not_and]
              intro _ h
              rcases owned he hcs h with ⟨a, ha, rfl⟩ | ⟨c', _, hm, _⟩
              · exact hnf a ha
              · have := hok.1 rfl; omega
            | err er =>
              simp only [ne_eq, reduceCtorEq, not_false_eq_true, true_and, Res.err.injEq]
              obtain ⟨g1, g2⟩ := hrep er rfl
              have her : er = ⟨namedLevel cs, indentOf l⟩ := by
                cases er; simp only at g1 g2; subst g1; rw [g2]; rfl
              subst her
              have hm : maxLevel (listing 1 cs) < indentOf l := by
                have : ¬(indentOf l ≤ maxLevel (listing 1 cs)) := fun h => by have := hok.2 h; simp [Res.isOk] at this
                omega
              constructor
              · rintro rfl; exact .deep he hcs hr hm
              · intro h
                rcases owned he hcs h with ⟨a, ha, rfl⟩ | ⟨c', _, _, rfl⟩
                · exact absurd ha (hnf a)
                · rfl

/-- The section is rejected with the error of the first line that has a fault. -/
theorem events_fault {v : Nat} {s : Str} {k : Nat} {e : EvErr} :
    (Events.parse v s : Res (LErr EvErr) (List (Event D))) = .err ⟨k, e⟩ ↔
    ∃ pre l post, ∃ evs : List (Event D), lines s = pre ++ l :: post ∧ pre.length = k ∧
      SectionReads v CmdLineReads (pre.filter nonBlank) evs ∧ ¬Blank l ∧ ¬LinePanics v evs l ∧ LineFault evs l e := by
  unfold Events.parse Events.parseVars
  rw [loop_err]
  constructor
  · rintro ⟨pre, l, post, evs, h1, rfl, h2, h3⟩
    exact ⟨pre, l, post, evs, h1, by simp, loop_section.1 h2, step_fault.1 h3⟩
  · rintro ⟨pre, l, post, evs, h1, rfl, h2, h3⟩
    exact ⟨pre, l, post, evs, h1, by simp, loop_section.2 h2, step_fault.2 h3⟩

end

end Osu
