/-
Reading with a smaller `usize`: errors of hit objects, sections, trigger types, settings, events.
-/
import Verif.Proof.Width
import Verif.Proof.FaultsHits
import Verif.Proof.Trigger

namespace Osu
open Parser

/-- Where `p` accepts a value without `sm`, `q` stops with an error that suits the value. -/
def Ref {γ α : Type} (sm : α → Prop) (C : α → γ → Prop) (q p : Parser γ α) : Prop :=
  ∀ s r a, p s = .ok r a → ¬ sm a → ∃ e c, q s = .error e ∧ firstCtx e = some c ∧ C a c

section
variable {γ α β : Type}

theorem Ref.bind_left {sm : β → Prop} {C : β → γ → Prop} (p : Parser γ α) {g f : α → Parser γ β}
    (h : ∀ a, Ref sm C (g a) (f a)) : Ref sm C (p.bind g) (p.bind f) := by
  intro s r b hb hs
  obtain ⟨r1, a, h1, h2⟩ := bind_eq_ok.1 hb
  obtain ⟨e, c, h3, h4, h5⟩ := h a _ _ _ h2 hs
  exact ⟨e, c, by rw [bind_app, h1]; exact h3, h4, h5⟩

theorem Ref.bind_ret {sm : α → Prop} {sm' : β → Prop} {C : α → γ → Prop} {C' : β → γ → Prop} {q p : Parser γ α} {f : α → β}
    (h : Ref sm C q p) (hs : ∀ a, sm a → sm' (f a)) (hC : ∀ a c, C a c → C' (f a) c) :
    Ref sm' C' (q.bind fun a => ret (f a)) (p.bind fun a => ret (f a)) := by
  intro s r b hb hs'
  obtain ⟨r1, a, h1, h2⟩ := bind_eq_ok.1 hb
  obtain ⟨_, rfl⟩ := ret_eq_ok.1 h2
  obtain ⟨e, c, h3, h4, h5⟩ := h _ _ _ h1 (fun h => hs' (hs a h))
  exact ⟨e, c, by rw [bind_app, h3], h4, hC _ _ h5⟩

/-- Nothing, or the parser in question. -/
theorem Ref.alt {sm : α → Prop} {C : α → γ → Prop} {n q p : Parser γ α} (hn : ∀ s r a, n s = .ok r a → sm a)
    (h : Ref sm C q p) : Ref sm C (alt [n, q]) (alt [n, p]) := by
  intro s r a ha hs
  rw [alt_cons_eq_ok, alt_cons_eq_ok, alt_nil_eq_ok] at ha
  rcases ha with ha | ⟨⟨e, he⟩, ha | ⟨_, ha⟩⟩
  · exact absurd (hn _ _ _ ha) hs
  · obtain ⟨e', c, h3, h4, h5⟩ := h _ _ _ ha hs
    refine ⟨e' ++ [(s, .nom .alt)], c, ?_, by rw [firstCtx_snoc_nom]; exact h4, h5⟩
    unfold Parser.alt
    simp only [altAux, he, h3]
  · exact ha.elim

end

namespace HitObject
variable {D : Type} [DecLib D]

theorem sample_ref {m : Nat} (hm : IsUsizeMax m) :
    Ref (OptFits m) (fun _ c => c = HOErr.invalidHitSample)
      ((context HOErr.invalidHitSample (mapRes rest (HO.HitSample.parseW m))).map some)
      ((context HOErr.invalidHitSample (mapRes rest HO.HitSample.parse)).map some) := by
  intro s r o ho hs
  simp only [map_eq_ok, context_eq_ok, mapRes_eq_ok, rest_eq_ok] at ho
  obtain ⟨h, ⟨t, ⟨rfl, rfl⟩, hp⟩, rfl⟩ := ho
  have hf : ¬ sampleFits m h := fun hf => hs fun h' hh => by cases hh; exact hf
  have : ∃ e, HO.HitSample.parseW m t = .err e := by
    cases hp' : HO.HitSample.parseW m t with
    | ok h' =>
      obtain ⟨h1, h2⟩ := (HO.HitSample.parseW_iff hm).1 hp'
      rw [hp] at h1; cases h1; exact absurd h2 hf
    | err e => exact ⟨e, rfl⟩
    | panic => exact absurd hp' (HO.HitSample.parseW_no_panic m t)
  obtain ⟨e, he⟩ := this
  refine ⟨[(t, .nom .mapRes)] ++ [(t, .ctx .invalidHitSample)], .invalidHitSample, ?_, rfl, rfl⟩
  simp only [Parser.map, context, mapRes, rest, he]

theorem preceded_map {γ α β δ : Type} (p : Parser γ α) (q : Parser γ β) (f : β → δ) :
    (preceded p q).map f = preceded p (q.map f) := by
  funext s
  unfold preceded
  simp only [Parser.map, Parser.bind]
  cases p s <;> rfl

theorem none_fits {γ : Type} {m : Nat} (s : Str) (r : Str) (o : Option HO.HitSample)
    (h : (nothing.map fun _ => none : Parser γ (Option HO.HitSample)) s = .ok r o) : OptFits m o := by
  obtain ⟨_, _, rfl⟩ := map_eq_ok.1 h
  exact fun _ h => nomatch h

theorem hitsamplePW_ref {m : Nat} (hm : IsUsizeMax m) :
    Ref (OptFits m) (fun _ c => c = HOErr.invalidHitSample) (hitsamplePW m) hitsampleP := by
  unfold hitsamplePW hitsampleP
  rw [preceded_map, preceded_map]
  exact Ref.alt none_fits (Ref.bind_left _ fun _ => sample_ref hm)

/-- The error of an object that does not fit: an edge set that does not fit ends the list of edge sets, and what is left
of it stands where the hit sample should begin. -/
def FitErr (m : Nat) (es : List HO.EdgeSet) (c : HOErr) : Prop :=
  ((∀ e ∈ es, edgeFits m e) ∧ c = .invalidHitSample) ∨ ((¬ ∀ e ∈ es, edgeFits m e) ∧ c = .missingHitSample)

theorem hitsamplePW_notComma {m : Nat} {s : Str} (h : NotComma s) (hb : ¬ AllC isSpace s) :
    ∃ e, hitsamplePW m s = .error e ∧ firstCtx e = some .missingHitSample := by
  obtain ⟨e1, h1⟩ : ∃ e, (nothing.map fun _ => none : Parser HOErr (Option HO.HitSample)) s = .error e :=
    map_err (nothing_err hb)
  have h2 : (comma s : PRes HOErr Str) = .error [(s, .nom .tag)] := by
    unfold comma tag
    rw [if_neg]
    intro hp
    obtain ⟨t, ht⟩ := List.isPrefixOf_iff_prefix.1 hp
    exact h t ht.symm
  refine ⟨[(s, .nom .tag)] ++ [(s, .ctx .missingHitSample)] ++ [(s, .nom .alt)], ?_, rfl⟩
  unfold hitsamplePW alt
  simp only [altAux]
  rw [h1]
  simp only [Parser.map, preceded, Parser.bind, context, h2]

theorem edgeSetPW_ref {m : Nat} (hm : IsUsizeMax m) :
    Ref (SetFits m) (fun t c => FitErr m t.1 c) (edgeSetPW m) edgeSetP := by
  unfold edgeSetPW edgeSetP
  rw [preceded_bind, preceded_bind]
  refine Ref.alt ?_ (Ref.bind_left _ fun _ => ?_)
  · intro s r a h; obtain ⟨_, _, rfl⟩ := map_eq_ok.1 h; exact ⟨by simp, fun _ h => nomatch h⟩
  intro s r t ht hs
  obtain ⟨r1, es, h1, h2⟩ := bind_eq_ok.1 ht
  obtain ⟨r2, h, h3, h4⟩ := bind_eq_ok.1 h2
  obtain ⟨_, rfl⟩ := ret_eq_ok.1 h4
  rw [context_eq_ok] at h1
  cases hsp : splitOnC ',' s with
  | nil => exact absurd hsp (splitOnC_ne_nil _ _)
  | cons p qs =>
    obtain ⟨rfl, hp, hqs⟩ := splitOnC_iff.1 hsp
    have hT := atComma_preC qs
    -- what the wide parser did
    have hwide : (PipeReads HO.EdgeSet.parse p es ∧ r1 = preC ',' qs) ∨ (AllC isSpace p ∧ es = [] ∧ qs = [] ∧ h = none) := by
      obtain ⟨x, l, g1, g2, g3⟩ := pipeVec_cases (γ := HOErr) (HO.EdgeSet.parse_blank .nil) HO.EdgeSet.parse_no_panic hp hT
      rw [g1] at h1
      cases h1
      rcases g3 with ⟨rfl, g3⟩ | ⟨g4, g3⟩
      · exact .inl ⟨g3, rfl⟩
      · obtain ⟨_, ⟨g5, _⟩ | ⟨_, g5, rfl, rfl⟩⟩ := (hitsampleP_lineEnd x qs _ _ g2 hqs).1 h3
        · exact absurd g5 g4
        · rcases g3 with ⟨rfl, rfl⟩ | ⟨c, r', rfl, hc⟩
          · exact .inr ⟨g5, rfl, rfl, rfl⟩
          · have := g5.of_cons.1
            have : c = ' ' ∨ c = '\t' := by simpa [isSpace] using this
            rcases this with rfl | rfl <;> exact absurd hc (by decide)
    rcases hwide with ⟨hread, rfl⟩ | ⟨_, rfl, rfl, rfl⟩
    · by_cases hes : ∀ e ∈ es, edgeFits m e
      · have hn := pipeVec_ok (γ := HOErr) (HO.EdgeSet.parseW_blank hm .nil) hp hT ((pipeReadsW hm).2 ⟨hread, hes⟩)
        have hh : ¬ OptFits m h := fun hh => hs ⟨hes, hh⟩
        obtain ⟨e, c, g1, g2, rfl⟩ := hitsamplePW_ref hm _ _ _ h3 hh
        refine ⟨e, _, ?_, g2, .inl ⟨hes, rfl⟩⟩
        rw [bind_app, context_eq_ok.2 hn]
        simp only
        rw [bind_app, g1]
      · obtain ⟨x, l, g1, g2, g3⟩ := pipeVec_cases (γ := HOErr) (HO.EdgeSet.parseW_blank hm .nil) (HO.EdgeSet.parseW_no_panic m) hp hT
        have hx : x ≠ [] ∧ ¬ AllC isSpace x := by
          rcases g3 with ⟨rfl, g3⟩ | ⟨g4, g3⟩
          · obtain ⟨g5, g6⟩ := (pipeReadsW hm).1 g3
            have : es = l := by
              have := pipeVec_ok (γ := HOErr) (HO.EdgeSet.parse_blank .nil) hp hT hread
              have h' := pipeVec_ok (γ := HOErr) (HO.EdgeSet.parse_blank .nil) hp hT g5
              rw [this] at h'; cases h'; rfl
            subst this
            exact absurd g6 hes
          · refine ⟨g4, fun hbl => ?_⟩
            rcases g3 with ⟨rfl, rfl⟩ | ⟨c, r', rfl, hc⟩
            · -- the whole piece is blank: then it has no edge set at all
              rcases hread with ⟨rfl, rfl⟩ | ⟨_, _, hr⟩
              · exact g4 rfl
              · have hno : NoC '|' x := hbl.mono fun c hc => by
                  have : c = ' ' ∨ c = '\t' := by simpa [isSpace] using hc
                  rcases this with rfl | rfl <;> decide
                rw [splitOnC_iff.2 (show x = x ++ preC '|' [] ∧ NoC '|' x ∧ ∀ q ∈ ([] : List Str), NoC '|' q from ⟨by simp [preC], hno, by simp⟩)] at hr
                obtain ⟨e, he⟩ := HO.EdgeSet.parse_blank (space_noColon hbl)
                cases es with
                | nil => cases hr
                | cons a es => simp [he] at hr
            · have := hbl.of_cons.1
              have : c = ' ' ∨ c = '\t' := by simpa [isSpace] using this
              rcases this with rfl | rfl <;> exact absurd hc (by decide)
        obtain ⟨e, k1, k2⟩ := hitsamplePW_notComma (m := m) (s := x ++ preC ',' qs)
          (by
            cases x with
            | nil => exact absurd rfl hx.1
            | cons c x =>
              intro y hy
              injection hy with hy
              subst hy
              exact absurd g2.of_cons.1 (by simp))
          (fun h' => hx.2 fun c hc => h' c (by simp [hc]))
        refine ⟨e, _, ?_, k2, .inr ⟨hes, rfl⟩⟩
        rw [bind_app, context_eq_ok.2 g1]
        simp only
        rw [bind_app, k1]
    · exact absurd ⟨by simp, fun _ h => nomatch h⟩ hs

theorem edgePW_ref {m : Nat} (hm : IsUsizeMax m) :
    Ref (fun t => SetFits m (t.2.1, t.2.2.1, t.2.2.2.2)) (fun t c => FitErr m t.2.1 c) (edgePW m) edgeP := by
  unfold edgePW edgeP
  refine Ref.alt ?_ (Ref.bind_left _ fun ss => Ref.bind_ret (edgeSetPW_ref hm) (fun _ h => h) fun _ _ h => h)
  intro s r a h; obtain ⟨_, _, rfl⟩ := map_eq_ok.1 h; exact ⟨by simp, fun _ h => nomatch h⟩

theorem sliderPW_ref {m : Nat} (hm : IsUsizeMax m) (v : Nat) :
    Ref (fun t => (∀ e ∈ t.1.edgeSets, edgeFits m e) ∧ OptFits m t.2) (fun t c => FitErr m t.1.edgeSets c)
      (sliderPW m v : Parser HOErr (SlideParams D × _)) (sliderP v) := by
  unfold sliderPW sliderP
  exact Ref.bind_left _ fun c => Ref.bind_left _ fun n => Ref.bind_left _ fun l =>
    Ref.bind_ret (edgePW_ref hm) (fun _ h => h) fun _ _ h => h

theorem spinnerPW_ref {m : Nat} (hm : IsUsizeMax m) (v : Nat) :
    Ref (fun t => OptFits m t.2) (fun _ c => FitErr m [] c) (spinnerPW m v : Parser HOErr (Decimal D × _)) (spinnerP v) := by
  unfold spinnerPW spinnerP
  exact Ref.bind_left _ fun c => Ref.bind_ret (hitsamplePW_ref hm) (fun _ h => h) fun _ _ h => .inl ⟨by simp, h⟩

theorem holdPW_ref {m : Nat} (hm : IsUsizeMax m) (v : Nat) :
    Ref (fun t => OptFits m t.2) (fun _ c => FitErr m [] c) (holdPW m v : Parser HOErr (Decimal D × _)) (holdP v) := by
  unfold holdPW holdP
  refine Ref.bind_left _ fun c => Ref.bind_ret (sm := OptFits m) (C := fun _ c => c = HOErr.invalidHitSample) ?_ (fun _ h => h)
    fun _ _ h => .inl ⟨by simp, h⟩
  rw [preceded_map, preceded_map]
  exact Ref.alt none_fits (Ref.bind_left _ fun _ => sample_ref hm)

theorem toRes_ref {γ α β : Type} {sm : α → Prop} {C : α → γ → Prop} {q p : Parser γ α} (h : Ref sm C q p) {f : α → β}
    {s : Str} {b : β} (hb : ((p s).toRes >>= fun a => .ok (f a)) = .ok b) (hs : ∀ a, f a = b → ¬ sm a) {P : γ → Prop}
    (hP : ∀ a c, f a = b → C a c → P c) :
    ∃ c, ((q s).toRes >>= fun a => .ok (f a)) = (.err c : Res γ β) ∧ P c := by
  obtain ⟨a, h1, h2⟩ := Res.bind_eq_ok'.1 hb
  obtain ⟨r, h1⟩ := toRes_eq_ok.1 h1
  cases h2
  obtain ⟨e, c, h3, h4, h5⟩ := h _ _ _ h1 (hs a rfl)
  refine ⟨c, ?_, hP _ _ rfl h5⟩
  rw [h3]
  simp only [PRes.toRes, h4]
  rfl

theorem parseW_err {m : Nat} (hm : IsUsizeMax m) {v : Nat} {s : Str} {o : HitObject D} (h : parse v s = .ok o)
    (ho : ¬ objectFits m o) : ∃ c, (parseW m v s : Res HOErr (HitObject D)) = .err c ∧ FitErr m o.edges c := by
  obtain ⟨r, pos, time, t, hs, h1, h2⟩ := parse_eq_ok.1 h
  unfold parseW
  rw [h1]
  simp only
  unfold finish at h2
  unfold finishW
  cases hc : HO.ComboSkipCount.new (skipOf t) with
  | none => rw [hc] at h2; cases h2
  | some sk =>
    rw [hc] at h2
    simp only at h2 ⊢
    by_cases h0 : nthBit t 0
    · rw [if_pos h0] at h2 ⊢
      refine toRes_ref (hitsamplePW_ref hm) h2 ?_ ?_
      · rintro a rfl hf; exact ho ⟨hf, fun _ h => nomatch h⟩
      · rintro a c rfl rfl; exact .inl ⟨(fun _ h => nomatch h), rfl⟩
    rw [if_neg h0] at h2 ⊢
    by_cases h1 : nthBit t 1
    · rw [if_pos h1] at h2 ⊢
      refine toRes_ref (sliderPW_ref hm v) h2 ?_ ?_
      · rintro a rfl hf; exact ho ⟨hf.2, hf.1⟩
      · rintro a c rfl hc; exact hc
    rw [if_neg h1] at h2 ⊢
    by_cases h3 : nthBit t 3
    · rw [if_pos h3] at h2 ⊢
      refine toRes_ref (spinnerPW_ref hm v) h2 ?_ ?_
      · rintro a rfl hf; exact ho ⟨hf, fun _ h => nomatch h⟩
      · rintro a c rfl hc; exact hc
    rw [if_neg h3] at h2 ⊢
    by_cases h7 : nthBit t 7
    · rw [if_pos h7] at h2 ⊢
      refine toRes_ref (holdPW_ref hm v) h2 ?_ ?_
      · rintro a rfl hf; exact ho ⟨hf, fun _ h => nomatch h⟩
      · rintro a c rfl hc; exact hc
    rw [if_neg h7] at h2
    cases h2

end HitObject

/-! ### Trigger types -/

namespace SB.TriggerType
variable [UniLib]

/-- A field whose number, if it is one, fits. -/
def FieldFits (m : Nat) (f : Str) : Prop := ∀ n, parseUsize f = .ok n → n.toNat ≤ m

omit [UniLib] in
theorem try3W_eq {m : Nat} (hm : m ≤ 18446744073709551615) {f : Str} (hf : FieldFits m f) (h : HitSound) :
    try3W m h f = try3 h f := by
  unfold try3W try3
  cases hu : parseUsize f with
  | ok n => rw [(parseUsizeW_iff hm).2 ⟨hu, hf n hu⟩]
  | err e =>
    cases hw : parseUsizeW m f with
    | ok n => have := ((parseUsizeW_iff hm).1 hw).1; rw [hu] at this; cases this
    | err e' => rfl
    | panic => rfl
  | panic => exact absurd hu (parseUsize_no_panic f)

omit [UniLib] in
theorem tryAtW_eq {m : Nat} (hm : m ≤ 18446744073709551615) {f : Str} (hf : FieldFits m f) (i : Nat) (h : HitSound) :
    tryAtW m i h f = tryAt i h f := by
  have h2 : try2W m h f = try2 h f := by
    unfold try2W try2; rw [try3W_eq hm hf h]; rfl
  have h1 : try1W m h f = try1 h f := by
    unfold try1W try1; rw [h2]; rfl
  have h0 : try0W m h f = try0 h f := by
    unfold try0W try0; rw [h1]; rfl
  unfold tryAtW tryAt
  rw [h0, h1, h2, try3W_eq hm hf h]
  rfl

omit [UniLib] in
theorem tryAllW_eq {m : Nat} (hm : m ≤ 18446744073709551615) {fs : List Str} (hf : ∀ f ∈ fs, FieldFits m f) (i : Nat)
    (h : HitSound) : tryAllW m i h fs = tryAll i h fs := by
  induction fs generalizing i h with
  | nil => rfl
  | cons f fs ih =>
    rw [tryAllW, tryAll, tryAtW_eq hm (hf f (by simp))]
    cases tryAt i h f with
    | ok p => exact ih (fun f hm => hf f (by simp [hm])) _ _
    | err e => rfl
    | panic => rfl

theorem parseW_eq {m : Nat} (hm : IsUsizeMax m) (s : Str) : parseW m s = parse s := by
  unfold parseW parse
  have : ∀ r, parseHitSoundW m r = parseHitSound r := by
    intro r
    unfold parseHitSoundW parseHitSound
    rw [tryAllW_eq hm.2]
    intro f hf n hn
    have := hm.1
    rcases fields_shape r f hf with rfl | ⟨c, r', rfl, hr⟩
    · exact absurd hn (parseUsize_nil n)
    · have := field_number hr hn; omega
  simp only [this]
  rfl

end SB.TriggerType

/-! ### Settings and events -/

theorem small_code {m : Nat} (hm : IsUsizeMax m) {n : UInt64} (h : n.toNat ≤ 9) : n.toNat ≤ m := by
  have := hm.1; omega

/-- The two readings of a number: the same, or too large for the narrow one, or not a number for both. -/
theorem usize_cases {m : Nat} (hm : IsUsizeMax m) (s : Str) :
    (∃ n, parseUsizeW m s = .ok n ∧ parseUsize s = .ok n) ∨
    (∃ e, parseUsizeW m s = .err e ∧ ((∃ e', parseUsize s = .err e') ∨ ∃ n, parseUsize s = .ok n ∧ 9 < n.toNat)) := by
  have := hm.1
  cases hw : parseUsizeW m s with
  | ok n => exact .inl ⟨n, rfl, ((parseUsizeW_iff hm.2).1 hw).1⟩
  | panic => exact absurd hw (parseUsizeW_no_panic m s)
  | err e =>
    refine .inr ⟨e, rfl, ?_⟩
    cases hu : parseUsize s with
    | ok n =>
      refine .inr ⟨n, rfl, ?_⟩
      have : ¬ n.toNat ≤ m := fun h => by
        have := (parseUsizeW_iff hm.2).2 ⟨hu, h⟩
        rw [hw] at this; cases this
      omega
    | err e' => exact .inl ⟨e', rfl⟩
    | panic => exact absurd hu (parseUsize_no_panic s)

theorem ne_of_large {n k : UInt64} (h : 9 < n.toNat) (hk : k.toNat ≤ 9) : n ≠ k := by
  rintro rfl; omega

/-- Two results that are the same, or two errors. -/
def SameUpToError {ε α : Type} (x y : Res ε α) : Prop := x = y ∨ ((∃ e, x = .err e) ∧ ∃ e, y = .err e)

theorem SameUpToError.ok_iff {ε α : Type} {x y : Res ε α} (h : SameUpToError x y) {a : α} : x = .ok a ↔ y = .ok a := by
  rcases h with rfl | ⟨⟨e, rfl⟩, e', rfl⟩
  · exact Iff.rfl
  · exact ⟨(nomatch ·), (nomatch ·)⟩

theorem Countdown.parseW_same {m : Nat} (hm : IsUsizeMax m) (v : Nat) (s : Str) :
    SameUpToError (Countdown.parseW m v s) (Countdown.parse v s) := by
  unfold Countdown.parseW Countdown.parse
  split
  · exact .inl rfl
  rename_i hv
  rcases usize_cases hm s with ⟨n, h1, h2⟩ | ⟨e, h1, ⟨e', h2⟩ | ⟨n, h2, h3⟩⟩
  · rw [h1, h2]; exact .inl rfl
  · rw [h1, h2]; exact .inr ⟨⟨_, rfl⟩, _, rfl⟩
  · rw [h1, h2]
    have : Countdown.fromRepr n v = none := by
      unfold Countdown.fromRepr
      rw [if_neg hv, if_neg (ne_of_large h3 (by decide)), if_neg (ne_of_large h3 (by decide)),
        if_neg (ne_of_large h3 (by decide)), if_neg (ne_of_large h3 (by decide))]
    simp only [this]
    exact .inr ⟨⟨_, rfl⟩, _, rfl⟩

theorem Mode.parseW_same {m : Nat} (hm : IsUsizeMax m) (v : Nat) (s : Str) :
    SameUpToError (Mode.parseW m v s) (Mode.parse v s) := by
  unfold Mode.parseW Mode.parse
  rcases usize_cases hm s with ⟨n, h1, h2⟩ | ⟨e, h1, ⟨e', h2⟩ | ⟨n, h2, h3⟩⟩
  · rw [h1, h2]; exact .inl rfl
  · rw [h1, h2]; exact .inr ⟨⟨_, rfl⟩, _, rfl⟩
  · rw [h1, h2]
    simp only
    rw [if_neg (ne_of_large h3 (by decide)), if_neg (ne_of_large h3 (by decide)),
      if_neg (ne_of_large h3 (by decide)), if_neg (ne_of_large h3 (by decide))]
    exact .inr ⟨⟨_, rfl⟩, _, rfl⟩

namespace Ev

theorem parseReprW_same {α : Type} {m : Nat} (hm : IsUsizeMax m) {f : UInt64 → Option α}
    (hf : ∀ n, 9 < n.toNat → f n = none) (s : Str) : SameUpToError (parseReprW m f s) (parseRepr f s) := by
  unfold parseReprW parseRepr
  rcases usize_cases hm s with ⟨n, h1, h2⟩ | ⟨e, h1, ⟨e', h2⟩ | ⟨n, h2, h3⟩⟩
  · rw [h1, h2]; exact .inl rfl
  · rw [h1, h2]; exact .inr ⟨⟨_, rfl⟩, _, rfl⟩
  · rw [h1, h2]
    simp only [hf n h3]
    exact .inr ⟨⟨_, rfl⟩, _, rfl⟩

theorem origin_large (n : UInt64) (h : 9 < n.toNat) : OriginLegacy.ofCode n = none := by
  unfold OriginLegacy.ofCode
  simp [ne_of_large h (k := 0) (by decide), ne_of_large h (k := 1) (by decide), ne_of_large h (k := 2) (by decide),
    ne_of_large h (k := 3) (by decide), ne_of_large h (k := 4) (by decide), ne_of_large h (k := 5) (by decide),
    ne_of_large h (k := 6) (by decide), ne_of_large h (k := 7) (by decide), ne_of_large h (k := 8) (by decide),
    ne_of_large h (k := 9) (by decide)]

theorem layer_large (n : UInt64) (h : 9 < n.toNat) : LayerLegacy.ofCode n = none := by
  unfold LayerLegacy.ofCode
  simp [ne_of_large h (k := 0) (by decide), ne_of_large h (k := 1) (by decide), ne_of_large h (k := 2) (by decide),
    ne_of_large h (k := 3) (by decide), ne_of_large h (k := 4) (by decide), ne_of_large h (k := 5) (by decide)]

theorem audioLayer_large (n : UInt64) (h : 9 < n.toNat) : AudioLayer.ofCode n = none := by
  unfold AudioLayer.ofCode
  simp [ne_of_large h (k := 0) (by decide), ne_of_large h (k := 1) (by decide), ne_of_large h (k := 2) (by decide),
    ne_of_large h (k := 3) (by decide)]

/-- The layer of an audio sample: the two readings have the same outcome. -/
theorem audioLayerW_eq {m : Nat} (hm : IsUsizeMax m) (s : Str) :
    (context NEErr.invalidLayer (mapOpt (context .invalidLayer (commaFieldType (parseUsizeW m))) AudioLayer.ofCode) s).out =
    (context NEErr.invalidLayer (mapOpt (context .invalidLayer (commaFieldType parseUsize)) AudioLayer.ofCode) s).out := by
  have hc : ∀ (f : Str → Res IntErr UInt64), (commaFieldType f : Parser NEErr UInt64) = mapRes commaField f := fun _ => rfl
  rw [hc, hc]
  obtain ⟨r, a, ha⟩ : ∃ r a, (commaField s : PRes NEErr Str) = .ok r a := ⟨_, _, rfl⟩
  simp only [context, mapOpt, mapRes, ha]
  rcases usize_cases hm a with ⟨n, h1, h2⟩ | ⟨e, h1, ⟨e', h2⟩ | ⟨n, h2, h3⟩⟩
  · rw [h1, h2]
  · rw [h1, h2]
  · rw [h1, h2]
    simp only [audioLayer_large n h3]
    rfl

theorem AudioSample.parseW_eq {m : Nat} (hm : IsUsizeMax m) (s : Str) : AudioSample.parseW m s = AudioSample.parse s := by
  unfold AudioSample.parseW AudioSample.parse
  split
  · rfl
  rw [toRes_out, toRes_out]
  congr 1
  rw [out_bind, out_bind]
  congr 1
  funext r t
  have key : ∀ (p : Parser NEErr Str), (preceded p (context NEErr.invalidLayer
      (mapOpt (context .invalidLayer (commaFieldType (parseUsizeW m))) AudioLayer.ofCode)) r).out =
      (preceded p (context NEErr.invalidLayer
      (mapOpt (context .invalidLayer (commaFieldType parseUsize)) AudioLayer.ofCode)) r).out := by
    intro p
    unfold preceded
    rw [out_bind, out_bind]
    congr 1
    funext r' _
    exact audioLayerW_eq hm r'
  rw [out_bind, out_bind, key]

end Ev
end Osu
