/-
Hit objects: the only panic is the overflow of a time.
-/
import Verif.Proof.HitObjectsRT
import Verif.Proof.Ctx

namespace Osu
open Parser

namespace Parser
variable {γ α β : Type}

theorem bind_eq_panic {p : Parser γ α} {f : α → Parser γ β} {s : Str} :
    (p.bind f) s = .panic ↔ p s = .panic ∨ ∃ r a, p s = .ok r a ∧ f a r = .panic := by
  rw [bind_app]
  cases h : p s with
  | ok r a =>
    simp only [reduceCtorEq, false_or, PRes.ok.injEq]
    exact ⟨fun h' => ⟨r, a, ⟨rfl, rfl⟩, h'⟩, fun ⟨_, _, ⟨e1, e2⟩, h'⟩ => by subst e1 e2; exact h'⟩
  | error e => simp
  | failure e => simp
  | panic => simp

theorem mapP_eq_panic {p : Parser γ α} {f : α → Option β} {s : Str} :
    (p.mapP f) s = .panic ↔ p s = .panic ∨ ∃ r a, p s = .ok r a ∧ f a = none := by
  unfold Parser.mapP
  cases h : p s with
  | ok r a =>
    simp only [reduceCtorEq, false_or]
    cases h' : f a with
    | none => simp only [true_iff]; exact ⟨r, a, rfl, h'⟩
    | some b =>
      simp only [reduceCtorEq, false_iff]
      rintro ⟨r', a', e, h2⟩
      cases e; rw [h'] at h2; cases h2
  | error e => simp
  | failure e => simp
  | panic => simp

end Parser

namespace HitObject
variable {D : Type} [DecLib D]

theorem hitsampleP_good {P} (hP : Upward P) : Good P hitsampleP := by
  refine Good.alt (ps := [_]) ?_ ?_
  · intro p hp
    simp at hp
    subst hp
    exact SafeF.nothing.map _
  · exact ((SafeF.comma.toSafe.context _).preceded hP
      ((Good.rest.toSafe.mapRes HO.HitSample.parse_no_panic).context _)).map _

theorem edgeSetP_good {P} (hP : Upward P) : Good P edgeSetP := by
  refine Good.alt (ps := [_]) ?_ ?_
  · intro p hp
    simp at hp
    subst hp
    exact SafeF.nothing.map _
  · exact ((SafeF.comma.toSafe.context _).preceded hP
      ((SafeF.pipeVec hP HO.EdgeSet.parse_no_panic).toSafe.context _)).bind hP fun es =>
      (hitsampleP_good hP).bind hP fun h => .ret _

theorem edgeP_good {P} (hP : Upward P) : Good P edgeP := by
  refine Good.alt (ps := [_]) ?_ ?_
  · intro p hp
    simp at hp
    subst hp
    exact SafeF.nothing.map _
  · exact ((SafeF.comma.toSafe.context _).preceded hP
      ((SafeF.pipeVec hP HO.HitSound.parse_no_panic).toSafe.context _)).bind hP fun es =>
      (edgeSetP_good hP).bind hP fun h => .ret _

theorem decParse_no_panic (s : Str) : (Decimal.parse s : Res Unit (Decimal D)) ≠ .panic := nofun

theorem curveP_good {P} (hP : Upward P) (v : Nat) : Good P (curveP v : Parser HOErr (_ × List (HO.CurvePoint D))) := by
  refine Good.alt (ps := [_]) ?_ ?_
  · intro p hp
    simp at hp
    subst hp
    exact (Good.commaThen hP HO.CurveType.parse_no_panic).toSafeF.map _
  · refine ((SafeF.comma.toSafe.context _).preceded hP
      (((Good.takeTill _).toSafe.mapRes HO.CurveType.parse_no_panic).context _)).bind hP fun c => ?_
    exact (((SafeF.char _).toSafe.context _).preceded hP
      (((SafeF.pipeVec hP HO.CurvePoint.parse_no_panic).toSafe.map _).context _)).bind hP fun ps => .ret _

theorem sliderP_good {P} (hP : Upward P) (v : Nat) : Good P (sliderP v : Parser HOErr (SlideParams D × _)) :=
  (curveP_good hP v).bind hP fun c => (Good.commaThen hP parseI32_no_panic).bind hP fun n =>
    (Good.commaThen hP decParse_no_panic).bind hP fun len => (edgeP_good hP).bind hP fun e => .ret _

theorem mapP_good {P} {γ α β : Type} {p : Parser γ α} (hp : Good P p) (f : α → Option β) {s : Str}
    (hs : (p.mapP f) s ≠ .panic) : (∀ e, (p.mapP f) s = .error e → (firstCtx e).isSome) ∧
      (∀ e, (p.mapP f) s = .failure e → (firstCtx e).isSome) := by
  unfold mapP
  cases h : p s with
  | ok r a => simp only; constructor <;> (intro e he; split at he <;> cases he)
  | error e => exact ⟨fun e he => (by cases he; exact hp.error h), fun e he => (by cases he)⟩
  | failure e => exact ⟨fun e he => (by cases he), fun e he => (by cases he; exact hp.failure h)⟩
  | panic => exact ⟨fun e he => (by cases he), fun e he => (by cases he)⟩

/-- The panic of a parser that begins with a conversion which may panic. -/
theorem toRes_mapP_panic {γ α β δ : Type} {p : Parser γ α} {f : α → Option β} {k : β → Parser γ δ} {s : Str}
    (hp : Good (fun _ => False) p) (hk : ∀ b, Good (fun _ => False) (k b)) (h : (((p.mapP f).bind k) s).toRes = .panic) :
    ∃ r a, p s = .ok r a ∧ f a = none := by
  by_cases hs : (p.mapP f) s = .panic
  · rcases mapP_eq_panic.1 hs with h' | h'
    · exact absurd (hp.panic h') id
    · exact h'
  · exfalso
    rw [bind_app] at h
    obtain ⟨g1, g2⟩ := mapP_good hp f hs
    cases hm : (p.mapP f) s with
    | ok r b => rw [hm] at h; exact (hk b).toRes h
    | panic => exact hs hm
    | error e =>
      rw [hm] at h
      have := g1 e hm
      simp only [PRes.toRes] at h
      cases hf : firstCtx e with
      | none => rw [hf] at this; cases this
      | some c => rw [hf] at h; cases h
    | failure e =>
      rw [hm] at h
      have := g2 e hm
      simp only [PRes.toRes] at h
      cases hf : firstCtx e with
      | none => rw [hf] at this; cases this
      | some c => rw [hf] at h; cases h

theorem spinnerP_panic {v : Nat} {qs : List Str} (hqs : ∀ q ∈ qs, NoC ',' q)
    (h : (spinnerP v (preC ',' qs) : PRes HOErr (Decimal D × _)).toRes = .panic) :
    ∃ e es, qs = e :: es ∧ TimeOverflows D v e := by
  have U := @Upward.false
  unfold spinnerP at h
  obtain ⟨r, a, h1, h2⟩ := toRes_mapP_panic (Good.commaThen U decParse_no_panic)
    (fun t => (hitsampleP_good U).bind U fun h => .ret _) h
  obtain ⟨q, qs', rfl, hq, rfl⟩ := (commaThen_pieces hqs).1 h1
  cases hq
  exact ⟨q, qs', rfl, TimingPoint.shiftUp_none.1 h2⟩

theorem holdP_panic {v : Nat} {qs : List Str}
    (h : (holdP v (preC ',' qs) : PRes HOErr (Decimal D × _)).toRes = .panic) :
    ∃ e es a b, qs = e :: es ∧ join [','] (e :: es) = a ++ ':' :: b ∧ lacks ':' a ∧ TimeOverflows D v a := by
  have U := @Upward.false
  unfold holdP at h
  rw [preceded_bind, preceded] at h
  rw [bind_app] at h
  cases hc : (context HOErr.missingEndTime comma : Parser HOErr Str) (preC ',' qs) with
  | panic => exact absurd ((SafeF.comma.toSafe.context (P := fun _ => False) HOErr.missingEndTime).panic hc) id
  | error e =>
    rw [hc] at h
    have := (SafeF.comma.toSafe.context (P := fun _ => False) HOErr.missingEndTime).error hc
    simp only [PRes.toRes] at h
    cases hf : firstCtx e with
    | none => rw [hf] at this; cases this
    | some c => rw [hf] at h; cases h
  | failure e =>
    rw [hc] at h
    have := (SafeF.comma.toSafe.context (P := fun _ => False) HOErr.missingEndTime).failure hc
    simp only [PRes.toRes] at h
    cases hf : firstCtx e with
    | none => rw [hf] at this; cases this
    | some c => rw [hf] at h; cases h
  | ok r x =>
    rw [hc] at h
    obtain ⟨r', a, h1, h2⟩ := toRes_mapP_panic (((SafeF.takeUntil _).toSafe.mapRes decParse_no_panic).context _)
      (fun t => (Good.alt (ps := [_]) (by
        intro p hp
        simp at hp
        subst hp
        exact SafeF.nothing.map _) ((((SafeF.char _).toSafe.context _).preceded U
          ((Good.rest.toSafe.mapRes HO.HitSample.parse_no_panic).context _)).map _)).bind U fun h => .ret _) h
    simp only [context_eq_ok, mapRes_eq_ok, takeUntil1_eq_ok, comma_eq_ok] at h1 hc
    obtain ⟨a', ⟨b, hab, rfl, ha⟩, hd⟩ := h1
    cases hd
    cases qs with
    | nil => obtain ⟨hc, _⟩ := hc; cases hc
    | cons e es =>
      obtain ⟨hc, _⟩ := hc
      rw [preC_cons] at hc
      have := (List.cons.inj hc).2
      refine ⟨e, es, a', b, rfl, by rw [join_eq_preC, this, hab], ?_, TimingPoint.shiftUp_none.1 h2⟩
      rw [lacks_iff]; exact ha

theorem parse_panic {v : Nat} {s : Str} (h : (parse v s : Res HOErr (HitObject D)) = .panic) :
    ∃ x y t rest, splitOnC ',' s = x :: y :: t :: rest ∧ (TimeOverflows D v t ∨
      ∃ ty hs e es, rest = ty :: hs :: e :: es ∧ (TimeOverflows D v e ∨
        ∃ a b, join [','] (e :: es) = a ++ ':' :: b ∧ lacks ':' a ∧ TimeOverflows D v a)) := by
  have U := @Upward.false
  cases hspl : splitOnC ',' s with
  | nil => exact absurd hspl (splitOnC_ne_nil _ _)
  | cons p qs =>
    obtain ⟨rfl, hp, hqs⟩ := splitOnC_iff.1 hspl
    have gx : Good (fun _ => False) (context HOErr.invalidX (commaFieldType (Decimal.parse (D := D)))) :=
      (SafeF.commaFieldType decParse_no_panic).toSafe.context _
    have gy : Good (fun _ => False) (preceded (context HOErr.missingY comma)
        (context HOErr.invalidY (commaFieldType (Decimal.parse (D := D))))) := .commaThen U decParse_no_panic
    have gt : Good (fun _ => False) (preceded (context HOErr.missingTime comma)
        (context HOErr.invalidTime (commaFieldType (Decimal.parse (D := D))))) := .commaThen U decParse_no_panic
    -- the first three fields
    have head : ∀ r x r1 y, context HOErr.invalidX (commaFieldType (Decimal.parse (D := D))) (p ++ preC ',' qs) = .ok r x →
        preceded (context HOErr.missingY comma) (context HOErr.invalidY (commaFieldType (Decimal.parse (D := D)))) r = .ok r1 y →
        ∀ r2 d, preceded (context HOErr.missingTime comma) (context HOErr.invalidTime (commaFieldType (Decimal.parse (D := D)))) r1 = .ok r2 d →
        Decimal.shiftUp v d = none →
        ∃ y t rest, p :: qs = p :: y :: t :: rest ∧ TimeOverflows D v t := by
      intro r x r1 y h1 h2 r2 d h3 h4
      obtain ⟨hx, rfl⟩ := (commaFieldType_pieces hp).1 (context_eq_ok.1 h1)
      obtain ⟨q1, qs1, rfl, hy', rfl⟩ := (commaThen_pieces hqs).1 h2
      have n1 : ∀ q ∈ qs1, NoC ',' q := fun q hq => hqs q (by simp [hq])
      obtain ⟨q2, qs2, rfl, hd', rfl⟩ := (commaThen_pieces n1).1 h3
      cases hd'
      exact ⟨q1, q2, qs2, rfl, TimingPoint.shiftUp_none.1 h4⟩
    unfold parse at h
    split at h
    · rename_i r pos time t hsd hh
      obtain ⟨y, tm, ty, hs, qs', rfl, rfl, rfl, htm, hty, hhs⟩ := (headP_iff hp hqs).1 hh
      have n' : ∀ q ∈ qs', NoC ',' q := fun q hq => hqs q (by simp [hq])
      refine ⟨p, y, tm, ty :: hs :: qs', rfl, .inr ?_⟩
      have bp : ∀ {ε α β : Type} {m : Res ε α} {f : α → β}, (m >>= fun a => (.ok (f a) : Res ε β)) = .panic → m = .panic := by
        intro ε α β m f hm
        cases m with
        | ok a => cases hm
        | err e => cases hm
        | panic => rfl
      unfold finish at h
      rw [skip_new] at h
      simp only at h
      split at h
      · exact absurd ((hitsampleP_good U).toRes (bp h)) id
      · split at h
        · exact absurd ((sliderP_good U v).toRes (bp h)) id
        · split at h
          · obtain ⟨e, es, rfl, ho⟩ := spinnerP_panic n' (bp h)
            exact ⟨ty, hs, e, es, rfl, .inl ho⟩
          · split at h
            · obtain ⟨e, es, a, b, rfl, h1, h2, h3⟩ := holdP_panic (bp h)
              exact ⟨ty, hs, e, es, rfl, .inr ⟨a, b, h1, h2, h3⟩⟩
            · cases h
    · -- an error of the head parser carries a context
      rename_i e he
      exfalso
      have : (firstCtx e).isSome := by
        unfold headP at he
        by_cases hh : ∃ r x r1 y, context HOErr.invalidX (commaFieldType (Decimal.parse (D := D))) (p ++ preC ',' qs) = .ok r x ∧
            preceded (context HOErr.missingY comma) (context HOErr.invalidY (commaFieldType (Decimal.parse (D := D)))) r = .ok r1 y
        · obtain ⟨r, x, r1, y, h1, h2⟩ := hh
          rw [Parser.bind_ok h1, Parser.bind_ok h2] at he
          rw [bind_app] at he
          by_cases hm : (mapP (preceded (context HOErr.missingTime comma) (context HOErr.invalidTime (commaFieldType (Decimal.parse (D := D)))))
              (Decimal.shiftUp v)) r1 = .panic
          · rw [hm] at he; cases he
          · obtain ⟨g1, g2⟩ := mapP_good gt (Decimal.shiftUp v) hm
            cases hr : (mapP (preceded (context HOErr.missingTime comma) (context HOErr.invalidTime (commaFieldType (Decimal.parse (D := D)))))
              (Decimal.shiftUp v)) r1 with
            | ok r2 t =>
              rw [hr] at he
              exact ((Good.commaThen U parseI32_no_panic).bind U fun t => (Good.commaThen U HO.HitSound.parse_no_panic).bind U
                fun hs => .ret _).error he
            | error e' => rw [hr] at he; cases he; exact g1 _ hr
            | failure e' => rw [hr] at he; cases he
            | panic => rw [hr] at he; cases he
        · rw [bind_app] at he
          cases h1 : context HOErr.invalidX (commaFieldType (Decimal.parse (D := D))) (p ++ preC ',' qs) with
          | ok r x =>
            rw [h1] at he
            simp only at he
            rw [bind_app] at he
            cases h2 : preceded (context HOErr.missingY comma) (context HOErr.invalidY (commaFieldType (Decimal.parse (D := D)))) r with
            | ok r1 y => exact absurd ⟨r, x, r1, y, h1, h2⟩ hh
            | error e' => rw [h2] at he; cases he; exact gy.error h2
            | failure e' => rw [h2] at he; cases he
            | panic => rw [h2] at he; cases he
          | error e' => rw [h1] at he; cases he; exact gx.error h1
          | failure e' => rw [h1] at he; cases he
          | panic => rw [h1] at he; cases he
      simp only [PRes.toRes] at h
      cases hf : firstCtx e with
      | none => rw [hf] at this; cases this
      | some c => rw [hf] at h; cases h
    · -- there are no failures
      rename_i e he
      exfalso
      have : (firstCtx e).isSome := by
        unfold headP at he
        rw [bind_app] at he
        cases h1 : context HOErr.invalidX (commaFieldType (Decimal.parse (D := D))) (p ++ preC ',' qs) with
        | ok r x =>
          rw [h1] at he
          simp only at he
          rw [bind_app] at he
          cases h2 : preceded (context HOErr.missingY comma) (context HOErr.invalidY (commaFieldType (Decimal.parse (D := D)))) r with
          | ok r1 y =>
            rw [h2] at he
            simp only at he
            rw [bind_app] at he
            cases hr : (mapP (preceded (context HOErr.missingTime comma) (context HOErr.invalidTime (commaFieldType (Decimal.parse (D := D)))))
              (Decimal.shiftUp v)) r1 with
            | ok r2 t =>
              rw [hr] at he
              exact ((Good.commaThen U parseI32_no_panic).bind U fun t => (Good.commaThen U HO.HitSound.parse_no_panic).bind U
                fun hs => .ret _).failure he
            | error e' => rw [hr] at he; cases he
            | failure e' =>
              rw [hr] at he; cases he
              exact (mapP_good gt (Decimal.shiftUp v) (by rw [hr]; nofun)).2 _ hr
            | panic => rw [hr] at he; cases he
          | error e' => rw [h2] at he; cases he
          | failure e' => rw [h2] at he; cases he; exact gy.failure h2
          | panic => rw [h2] at he; cases he
        | error e' => rw [h1] at he; cases he
        | failure e' => rw [h1] at he; cases he; exact gx.failure h1
        | panic => rw [h1] at he; cases he
      simp only [PRes.toRes] at h
      cases hf : firstCtx e with
      | none => rw [hf] at this; cases this
      | some c => rw [hf] at h; cases h
    · -- the time
      rename_i hh
      unfold headP at hh
      rcases bind_eq_panic.1 hh with h1 | ⟨r, x, h1, hh⟩
      · exact absurd (gx.panic h1) id
      rcases bind_eq_panic.1 hh with h2 | ⟨r1, y, h2, hh⟩
      · exact absurd (gy.panic h2) id
      rcases bind_eq_panic.1 hh with h3 | ⟨r2, t, h3, hh⟩
      · rcases mapP_eq_panic.1 h3 with h3 | ⟨r2, d, h3, h4⟩
        · exact absurd (gt.panic h3) id
        · obtain ⟨y, t, rest, e, ho⟩ := head r x r1 y h1 h2 r2 d h3 h4
          exact ⟨p, y, t, rest, e, .inl ho⟩
      · exact absurd (((Good.commaThen U parseI32_no_panic).bind U fun t => (Good.commaThen U HO.HitSound.parse_no_panic).bind U
                fun hs => .ret _).panic hh) id

end HitObject
end Osu
