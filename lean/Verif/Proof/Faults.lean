/-
Which error a refused line gives: timing points.
-/
import Verif.Spec.Faults
import Verif.Proof.Out

namespace Osu
open Parser

theorem firstFault_nil {E : Type} (ps : List Str) : firstFault ([] : List (Column E)) ps = none := by
  unfold firstFault; rfl

theorem readable_ok {ε α : Type} {f : Str → Res ε α} {p : Str} {a : α} (h : f p = .ok a) : readable f p = true := by
  unfold readable; rw [h]; rfl

theorem readable_err {ε α : Type} {f : Str → Res ε α} {p : Str} {e : ε} (h : f p = .err e) : readable f p = false := by
  unfold readable; rw [h]; rfl

/-- The steps of a computation. -/
macro "run" : tactic => `(tactic| simp only [out_bind, out_ret, out_preceded, out_pair, out_terminated, out_map, out_mapP,
  out_mapRes, out_mapOpt, out_verify, out_peek, out_context, out_cut, out_alt_one, out_alt_cons, out_guardP, out_rest, out_fail,
  out_restType, out_comma_nil, out_comma_cons, Out.seq_ok, Out.seq_soft, Out.seq_hard, Out.seq_panic, Out.label_ok, Out.label_none,
  Out.label_some, Out.label_hnone, Out.label_hsome, Out.label_panic, Out.cut_ok, Out.cut_soft, Out.cut_hard, Out.cut_panic,
  Out.orElse_ok, Out.orElse_soft, Out.orElse_hard, Out.orElse_panic, Out.ofRes_ok, Out.ofRes_err, Out.ofRes_panic])

/-- Success if there is no fault, an error with the name of the fault otherwise. -/
def Out.Agrees {γ α : Type} : Out γ α → Option γ → Prop
  | .ok _ _, none => True
  | .soft (some c), some d => c = d
  | .hard (some c), some d => c = d
  | _, _ => False

section
variable {γ α β ε : Type}

theorem Out.Agrees.toRes {o : Out γ α} {f : Option γ} (h : o.Agrees f) {e : γ} : o.toRes = .err e ↔ f = some e := by
  rcases o with ⟨r, a⟩ | ⟨_ | c⟩ | ⟨_ | c⟩ | _ <;> cases f <;> simp_all [Out.Agrees, Out.toRes]

theorem Out.Agrees.no_panic {o : Out γ α} {f : Option γ} (h : o.Agrees f) : o.toRes ≠ .panic := by
  rcases o with ⟨r, a⟩ | ⟨_ | c⟩ | ⟨_ | c⟩ | _ <;> cases f <;> simp_all [Out.Agrees, Out.toRes]

theorem Out.Agrees.cut {o : Out γ α} {f : Option γ} (h : o.Agrees f) : o.cut.Agrees f := by
  rcases o with ⟨r, a⟩ | ⟨_ | c⟩ | ⟨_ | c⟩ | _ <;> cases f <;> simp_all [Out.Agrees, Out.cut]

theorem Out.Agrees.label {o : Out γ α} {f : Option γ} (h : o.Agrees f) (c : γ) : (o.label c).Agrees f := by
  rcases o with ⟨r, a⟩ | ⟨_ | c⟩ | ⟨_ | c⟩ | _ <;> cases f <;> simp_all [Out.Agrees, Out.label]

theorem Out.Agrees.seq {o : Out γ α} {f : Option γ} (h : o.Agrees f) {k : Str → α → Out γ β} 
    (hk : ∀ r a, ∃ r' b, k r a = .ok r' b) : (o.seq k).Agrees f := by
  rcases o with ⟨r, a⟩ | ⟨_ | c⟩ | ⟨_ | c⟩ | _ <;> cases f <;> simp_all [Out.Agrees, Out.seq]
  obtain ⟨r', b, hk⟩ := hk r a; rw [hk]; trivial

/-- A comma, and then what the parser makes of the next piece. -/
theorem agrees_comma {m : γ} {p : Parser γ α} {k : Str → α → Out γ β} {qs : List Str} {f : Option γ}
    (h0 : qs = [] → f = some m)
    (h : ∀ q qs', qs = q :: qs' → ((p (q ++ preC ',' qs')).out.seq k).Agrees f) :
    ((preceded (context m comma) p (preC ',' qs)).out.seq k).Agrees f := by
  cases qs with
  | nil => run; rw [h0 rfl]; rfl
  | cons q qs' => run; exact h q qs' rfl

/-- A piece, and then the next columns. -/
theorem agrees_field {m i : γ} {g : Str → Res ε α} {q : Str} {qs : List Str} {k : Str → α → Out γ β}
    {cs : List (Column γ)} (hq : NoC ',' q) (hg : g q ≠ .panic)
    (h : ∀ a, g q = .ok a → (k (preC ',' qs) a).Agrees (firstFault cs qs)) :
    ((context i (commaFieldType g) (q ++ preC ',' qs)).out.seq k).Agrees
      (firstFault (⟨m, i, readable g, false⟩ :: cs) (q :: qs)) := by
  rw [out_context, out_commaFieldType _ hq]
  unfold firstFault
  cases hr : g q with
  | ok a => run; rw [if_pos (by simpa using readable_ok hr)]; exact h a hr
  | err e => run; rw [if_neg (by simp [readable_err hr])]; rfl
  | panic => exact absurd hr hg

/-- A column, and then the next columns. -/
theorem agrees_column {m i : γ} {g : Str → Res ε α} {qs : List Str} {k : Str → α → Out γ β} {cs : List (Column γ)}
    (hqs : ∀ q ∈ qs, NoC ',' q) (hg : ∀ q, g q ≠ .panic)
    (h : ∀ q qs' a, qs = q :: qs' → g q = .ok a → (k (preC ',' qs') a).Agrees (firstFault cs qs')) :
    ((preceded (context m comma) (context i (commaFieldType g)) (preC ',' qs)).out.seq k).Agrees
      (firstFault (⟨m, i, readable g, false⟩ :: cs) qs) := by
  refine agrees_comma (by rintro rfl; rfl) fun q qs' hq => ?_
  subst hq
  exact agrees_field (hqs q (by simp)) (hg q) fun a ha => h q qs' a rfl ha

/-- A last column that takes the rest of the line. -/
theorem agrees_rest {m i : γ} {g : Str → Res ε α} {q : Str} {qs : List Str} {k : Str → α → Out γ β}
    (hg : ∀ q, g q ≠ .panic) (h : ∀ a, g (join [','] (q :: qs)) = .ok a → ∃ r b, k [] a = .ok r b) :
    ((context i (restType g) (q ++ preC ',' qs)).out.seq k).Agrees
      (firstFault [⟨m, i, readable g, true⟩] (q :: qs)) := by
  rw [out_context, out_restType, piece_join]
  unfold firstFault
  simp only [if_true]
  cases hr : g (join [','] (q :: qs)) with
  | ok a =>
    run; rw [if_pos (by simpa using readable_ok hr), firstFault_nil]
    obtain ⟨r, b, hk⟩ := h a hr; rw [hk]; trivial
  | err e => run; rw [if_neg (by simp [readable_err hr])]; rfl
  | panic => exact absurd hr (hg _)

end

namespace TimingPoint
variable {D : Type} [DecLib D]

/-- A parser that only reads text of numbers does not read text with a comma. -/
theorem err_comma {ε α : Type} {f : Str → Res ε α} (hn : ∀ s, f s ≠ .panic)
    (hf : ∀ s a, f s = .ok a → AllC isNumChar s) (q q' : Str) (qs : List Str) :
    ∃ e, f (q ++ preC ',' (q' :: qs)) = .err e :=
  err_of_char hn hf (c := ',') (by rw [preC_cons]; simp) (by decide)

variable (v : Nat)

/-- The last columns of a timing point, from the uninherited flag on. -/
def tailColumns (last : Bool) : List (Column TPErr) :=
  [⟨.missingUninherited, .invalidUninherited, readable parseZeroOneBool, false⟩] ++
    if v ≤ 5 ∧ last = true then [] else [⟨.missingEffects, .invalidEffects, readable TP.Effects.parse, true⟩]

theorem tailP_agrees {q : Str} {qs : List Str} (hq : NoC ',' q) :
    (tailP v (q ++ preC ',' qs)).out.Agrees (firstFault (tailColumns v qs.isEmpty) (q :: qs)) := by
  unfold tailColumns
  have hn := parseZeroOneBool_no_panic
  have key : ∀ (h : ¬(v ≤ 5 ∧ qs.isEmpty = true)),
      (((context TPErr.invalidUninherited (mapRes commaField parseZeroOneBool)).bind fun u =>
      (preceded (context .missingEffects comma)
        (context .invalidEffects (restType TP.Effects.parse))).bind fun e =>
      ret (some u, some e)) (q ++ preC ',' qs)).out.Agrees (firstFault
      ([⟨.missingUninherited, .invalidUninherited, readable parseZeroOneBool, false⟩] ++
        if v ≤ 5 ∧ qs.isEmpty = true then [] else [⟨.missingEffects, .invalidEffects, readable TP.Effects.parse, true⟩]) (q :: qs)) := by
    intro h
    rw [if_neg h, out_bind]
    refine agrees_field hq (hn q) fun u hu => ?_
    rw [out_bind]
    refine agrees_comma (by rintro rfl; rfl) fun q' qs' hq' => ?_
    subst hq'
    exact agrees_rest TP.Effects.parse_no_panic fun a _ => ⟨_, _, rfl⟩
  unfold tailP
  rw [out_alt_cons, out_alt_one, out_map, out_preceded, out_guardP]
  by_cases hv : v ≤ 5
  · rw [decide_eq_true hv, if_pos rfl, Out.seq_ok, out_context]
    rw [show (mapRes rest parseZeroOneBool : Parser TPErr Bool) = restType parseZeroOneBool from rfl, out_restType]
    cases qs with
    | nil =>
      simp only [preC_nil, List.append_nil]
      cases hr : parseZeroOneBool q with
      | ok a => run; simp [hv, firstFault, readable_ok hr, Out.Agrees]
      | err e =>
        run
        have := out_commaField (γ := TPErr) (qs := []) hq
        simp only [preC_nil, List.append_nil] at this
        rw [this]; run; rw [hr]; run
        simp [firstFault, readable_err hr, Out.Agrees]
      | panic => exact absurd hr (hn q)
    | cons q' qs' =>
      obtain ⟨e, he⟩ := err_comma hn (fun s a h => parseZeroOneBool_chars h) q q' qs'
      rw [he]
      exact key (by simp)
  · rw [decide_eq_false hv]
    exact key (by simp [hv])

/-- The last columns of a timing point, from the volume on, with `n` further pieces. -/
def volumeColumns (n : Nat) : List (Column TPErr) :=
  [⟨.missingVolume, .invalidVolume, readable TP.Volume.parse, decide (v ≤ 4)⟩] ++
    if v ≤ 4 ∨ n = 0 then [] else tailColumns v (decide (n = 1))

theorem volumeP_agrees {q : Str} {qs : List Str} (hq : NoC ',' q) (hqs : ∀ q ∈ qs, NoC ',' q) :
    (volumeP v (q ++ preC ',' qs)).out.Agrees (firstFault (volumeColumns v qs.length) (q :: qs)) := by
  have hn := TP.Volume.parse_no_panic
  unfold volumeP volumeColumns
  rw [out_alt_cons, out_map, out_preceded, out_guardP]
  by_cases hv : v ≤ 4
  · rw [decide_eq_true hv, if_pos rfl, Out.seq_ok, if_pos (.inl hv), out_context, out_cut, out_restType, piece_join,
      List.append_nil]
    unfold firstFault
    simp only [if_true]
    cases hr : TP.Volume.parse (join [','] (q :: qs)) with
    | ok a => run; rw [if_pos (by simpa using readable_ok hr), firstFault_nil]; trivial
    | err e => run; rw [if_neg (by simp [readable_err hr])]; rfl
    | panic => exact absurd hr (hn _)
  · rw [decide_eq_false hv]
    simp only [Bool.false_eq_true, if_false, Out.seq_soft, Out.orElse_soft, hv, false_or]
    rw [out_alt_cons, out_alt_one, out_map, out_context, out_restType]
    have key : (((context TPErr.invalidVolume (commaFieldType TP.Volume.parse)).bind fun vo =>
        (preceded (context .missingUninherited comma) (tailP v)).bind fun t => ret (vo, t.1, t.2)) (q ++ preC ',' qs)).out.Agrees
        (firstFault ([⟨.missingVolume, .invalidVolume, readable TP.Volume.parse, false⟩] ++ tailColumns v (decide (qs.length = 1)))
          (q :: qs)) := by
      rw [out_bind]
      refine agrees_field hq (hn q) fun vo _ => ?_
      rw [out_bind]
      refine agrees_comma (by rintro rfl; rfl) fun q' qs' hq' => ?_
      subst hq'
      refine Out.Agrees.seq ?_ fun r a => ⟨_, _, rfl⟩
      have := tailP_agrees v (q := q') (qs := qs') (hqs q' (by simp))
      have hl : decide ((q' :: qs').length = 1) = qs'.isEmpty := by cases qs' <;> simp
      rw [hl]
      exact this
    cases qs with
    | nil =>
      simp only [preC_nil, List.append_nil, List.length_nil, if_true]
      cases hr : TP.Volume.parse q with
      | ok a => run; simp [firstFault, readable_ok hr, Out.Agrees]
      | err e =>
        have := out_commaFieldType (γ := TPErr) TP.Volume.parse (qs := []) hq
        simp only [preC_nil, List.append_nil, hr] at this
        rw [out_bind, out_context, this]; run
        simp [firstFault, readable_err hr, Out.Agrees]
      | panic => exact absurd hr (hn q)
    | cons q' qs' =>
      obtain ⟨e, he⟩ := err_comma hn (fun s a h => TP.Volume.parse_chars h) q q' qs'
      rw [he, if_neg (by simp)]
      exact key

/-- The last columns of a timing point, from the sample index on, with `n` further pieces. -/
def indexColumns (n : Nat) : List (Column TPErr) :=
  [⟨.missingSampleIndex, .invalidSampleIndex, readable TP.SampleIndex.parse, false⟩] ++
    if v ≤ 4 ∧ n = 0 then [] else volumeColumns v (n - 1)

theorem indexP_agrees {q : Str} {qs : List Str} (hq : NoC ',' q) (hqs : ∀ q ∈ qs, NoC ',' q) :
    (indexP v (q ++ preC ',' qs)).out.Agrees (firstFault (indexColumns v qs.length) (q :: qs)) := by
  have hn := TP.SampleIndex.parse_no_panic
  unfold indexP indexColumns
  rw [out_alt_cons, out_alt_one, out_map, out_preceded, out_guardP]
  have key : ∀ _ : ¬(v ≤ 4 ∧ qs.length = 0), (((context TPErr.invalidSampleIndex (commaFieldType TP.SampleIndex.parse)).bind fun i =>
      (preceded (context .missingVolume comma) (volumeP v)).bind fun t => ret (i, t)) (q ++ preC ',' qs)).out.Agrees
      (firstFault ([⟨.missingSampleIndex, .invalidSampleIndex, readable TP.SampleIndex.parse, false⟩] ++
        if v ≤ 4 ∧ qs.length = 0 then [] else volumeColumns v (qs.length - 1)) (q :: qs)) := by
    intro h
    rw [if_neg h, out_bind]
    refine agrees_field hq (hn q) fun vo _ => ?_
    rw [out_bind]
    refine agrees_comma (by rintro rfl; rfl) fun q' qs' hq' => ?_
    subst hq'
    exact Out.Agrees.seq (volumeP_agrees v (hqs q' (by simp)) fun x hx => hqs x (by simp [hx])) fun r a => ⟨_, _, rfl⟩
  by_cases hv : v ≤ 4
  · rw [decide_eq_true hv, if_pos rfl, Out.seq_ok, out_context, out_restType]
    cases qs with
    | nil =>
      simp only [preC_nil, List.append_nil]
      cases hr : TP.SampleIndex.parse q with
      | ok a => run; simp [hv, firstFault, readable_ok hr, Out.Agrees]
      | err e =>
        have := out_commaFieldType (γ := TPErr) TP.SampleIndex.parse (qs := []) hq
        simp only [preC_nil, List.append_nil, hr] at this
        rw [out_bind, out_context, this]; run
        simp [firstFault, readable_err hr, Out.Agrees]
      | panic => exact absurd hr (hn q)
    | cons q' qs' =>
      obtain ⟨e, he⟩ := err_comma hn (fun s a h => TP.SampleIndex.parse_chars h) q q' qs'
      rw [he]
      exact key (by simp)
  · rw [decide_eq_false hv]
    exact key (by simp [hv])

theorem tpColumns_eq (n : Nat) (hv : 4 ≤ v) : tpColumns v (n + 5) =
    [⟨.invalidTime, .invalidTime, anyText, false⟩, ⟨.missingBeatLength, .missingBeatLength, anyText, false⟩,
     ⟨.missingMeter, .invalidMeter, readable parseI32, false⟩,
      ⟨.missingSampleSet, .invalidSampleSet, readable TP.SampleSet.parse, false⟩] ++ indexColumns v n := by
  unfold tpColumns indexColumns volumeColumns tailColumns
  rcases (by omega : n = 0 ∨ n = 1 ∨ n = 2 ∨ (¬ n + 5 ≤ 5 ∧ ¬ n + 5 ≤ 6 ∧ n + 5 ≠ 7 ∧ n ≠ 0 ∧ n - 1 ≠ 0 ∧ n - 1 ≠ 1)) with
    rfl | rfl | rfl | ⟨h1, h2, h3, h4, h5, h6⟩ <;>
  rcases (by omega : v = 4 ∨ v = 5 ∨ (¬ v ≤ 3 ∧ ¬ v ≤ 4 ∧ ¬ v ≤ 5 ∧ v ≠ 4 ∧ v ≠ 5)) with rfl | rfl | ⟨k3, k4, k5, k6, k7⟩ <;>
  simp only [*, Nat.reduceLeDiff, Nat.reduceEqDiff, if_true, if_false, ne_eq, not_false_eq_true, or_false, false_or, and_true, true_and,
    false_and, and_false, or_true, true_or, decide_true, decide_false, List.append_nil, Nat.reduceAdd, Nat.reduceSub, Nat.le_refl] <;> rfl

theorem tpColumns_split (n : Nat) (hv : 4 ≤ v) : ∃ cs, tpColumns v n =
    [⟨.invalidTime, .invalidTime, anyText, false⟩, ⟨.missingBeatLength, .missingBeatLength, anyText, false⟩,
     ⟨.missingMeter, .invalidMeter, readable parseI32, false⟩,
      ⟨.missingSampleSet, .invalidSampleSet, readable TP.SampleSet.parse, false⟩] ++
      ⟨.missingSampleIndex, .invalidSampleIndex, readable TP.SampleIndex.parse, false⟩ :: cs ∧
    (5 ≤ n → ⟨.missingSampleIndex, .invalidSampleIndex, readable TP.SampleIndex.parse, false⟩ :: cs = indexColumns v (n - 5)) := by
  by_cases hn : 5 ≤ n
  · obtain ⟨m, rfl⟩ : ∃ m, n = m + 5 := ⟨n - 5, by omega⟩
    exact ⟨_, tpColumns_eq v m hv, fun _ => by simp; rfl⟩
  · refine ⟨(if v ≤ 3 ∨ (v = 4 ∧ n ≤ 5) then [] else
        [⟨.missingVolume, .invalidVolume, readable TP.Volume.parse, decide (v = 4)⟩]) ++
        (if v ≤ 4 ∨ n ≤ 6 then [] else
          [⟨.missingUninherited, .invalidUninherited, readable parseZeroOneBool, false⟩]) ++
        (if v ≤ 4 ∨ n ≤ 6 ∨ (v = 5 ∧ n = 7) then [] else
          [⟨.missingEffects, .invalidEffects, readable TP.Effects.parse, true⟩]), ?_, fun h => absurd h hn⟩
    unfold tpColumns
    rw [if_neg (by omega : ¬ v ≤ 3)]
    simp

/-- A decimal column has no unreadable pieces. -/
theorem agrees_decimal {γ β : Type} {m i : γ} {q : Str} {qs : List Str} {k : Str → Decimal D → Out γ β}
    {cs : List (Column γ)} (hq : NoC ',' q) (h : (k (preC ',' qs) (Decimal.ofStr q)).Agrees (firstFault cs qs)) :
    ((commaFieldType Decimal.parse (q ++ preC ',' qs) : PRes γ (Decimal D)).out.seq k).Agrees
      (firstFault (⟨m, i, anyText, false⟩ :: cs) (q :: qs)) := by
  rw [out_commaFieldType _ hq]
  unfold firstFault
  exact h

theorem bodyP_agrees {q : Str} {qs : List Str} (hq : NoC ',' q) (hqs : ∀ q ∈ qs, NoC ',' q) (p : Str) :
    (bodyP v (q ++ preC ',' qs) : PRes TPErr (Decimal D × _)).out.Agrees
      (firstFault (tpColumns v (qs.length + 2)) (p :: q :: qs)) := by
  unfold bodyP
  rw [out_alt_cons, out_alt_one, out_map, out_preceded, out_guardP]
  by_cases hv : v ≤ 3
  · rw [decide_eq_true hv, if_pos rfl, Out.seq_ok, out_restType]
    have : tpColumns v (qs.length + 2) =
        [⟨.invalidTime, .invalidTime, anyText, false⟩, ⟨.missingBeatLength, .missingBeatLength, anyText, false⟩] := by
      unfold tpColumns
      simp only [hv, if_true, true_or, (by omega : v ≤ 4), List.append_nil]
    rw [this]
    simp [firstFault, anyText, Decimal.parse, Out.Agrees]
  · rw [decide_eq_false hv]
    simp only [Bool.false_eq_true, if_false, Out.seq_soft, Out.orElse_soft]
    obtain ⟨cs, hcs, hc⟩ := tpColumns_split v (qs.length + 2) (by omega)
    rw [hcs, out_bind]
    show Out.Agrees _ (firstFault (⟨.missingBeatLength, .missingBeatLength, anyText, false⟩ :: _) (q :: qs))
    refine agrees_decimal hq ?_
    rw [out_bind]
    refine agrees_column hqs parseI32_no_panic fun q1 qs1 m hq1 _ => ?_
    subst hq1
    rw [out_bind]
    refine agrees_column (fun x hx => hqs x (by simp [hx])) TP.SampleSet.parse_no_panic fun q2 qs2 ss hq2 _ => ?_
    subst hq2
    rw [out_bind]
    refine agrees_comma (by rintro rfl; rfl) fun q3 qs3 hq3 => ?_
    subst hq3
    refine Out.Agrees.seq ?_ fun r a => ⟨_, _, rfl⟩
    have := indexP_agrees v (q := q3) (qs := qs3) (hqs q3 (by simp)) fun x hx => hqs x (by simp [hx])
    have h' := hc (by simp)
    show Out.Agrees _ (firstFault (_ :: cs) _)
    rw [h', show (q1 :: q2 :: q3 :: qs3).length + 2 - 5 = qs3.length by simp]
    exact this

theorem parse_err_iff {s p : Str} {qs : List Str} (hs : splitOnC ',' s = p :: qs) {e : TPErr} :
    (parse v s : Res TPErr (TimingPoint D)) = .err e ↔
      ¬TimeOverflows D v p ∧ firstFault (tpColumns v (qs.length + 1)) (p :: qs) = some e := by
  obtain ⟨rfl, hp, hqs⟩ := splitOnC_iff.1 hs
  unfold parse parser
  rw [toRes_out, out_bind, out_mapP, out_context, out_commaFieldType _ hp]
  simp only [Decimal.parse, Out.ofRes_ok, Out.label_ok, Out.seq_ok]
  cases hsh : (Decimal.shiftUp v (Decimal.ofStr p) : Option (Decimal D)) with
  | none =>
    have := shiftUp_none.1 hsh
    simp [this]
  | some t =>
    have : ¬TimeOverflows D v p := fun h => by rw [shiftUp_none.2 h] at hsh; cases hsh
    simp only [this, not_false_eq_true, true_and, Out.seq_ok]
    rw [← Out.Agrees.toRes]
    rw [out_bind]
    refine agrees_comma ?_ fun q qs' hq => ?_
    · rintro rfl
      unfold tpColumns
      rfl
    · subst hq
      exact Out.Agrees.seq (bodyP_agrees v (hqs q (by simp)) (fun x hx => hqs x (by simp [hx])) p) fun r a => ⟨_, _, rfl⟩

end TimingPoint
end Osu
