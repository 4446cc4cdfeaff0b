/-
Reading with a smaller `usize`.
-/
import Verif.Model.Width
import Verif.Spec.Width
import Verif.Proof.HitObjectsPanic

namespace Osu
open Parser

theorem parseDigits_narrow {e : IntErr} {m M : Nat} (h : m ≤ M) {a n : Nat} {s : Str} (ha : a ≤ m) :
    parseDigits e m a s = .ok n ↔ parseDigits e M a s = .ok n ∧ n ≤ m := by
  induction s generalizing a with
  | nil =>
    simp only [parseDigits]
    constructor
    · intro h'; cases h'; exact ⟨rfl, ha⟩
    · exact fun h' => h'.1
  | cons c s ih =>
    simp only [parseDigits]
    cases digitVal c with
    | none => simp
    | some d =>
      simp only
      by_cases h1 : m < a * 10 + d
      · rw [if_pos h1]
        simp only [reduceCtorEq, false_iff]
        rintro ⟨h2, h3⟩
        split at h2
        · cases h2
        · have : ∀ {s : Str} {a n : Nat}, parseDigits e M a s = .ok n → a ≤ n := by
            intro s
            induction s with
            | nil => intro a n h; simp only [parseDigits] at h; cases h; exact Nat.le_refl _
            | cons c s ih =>
              intro a n h
              simp only [parseDigits] at h
              split at h
              · cases h
              · split at h
                · cases h
                · have := ih h; omega
          have := this h2
          omega
      · rw [if_neg h1, if_neg (by omega)]
        exact ih (by omega)

theorem parseUnsigned_narrow {m M : Nat} (h : m ≤ M) {n : Nat} {s : Str} :
    parseUnsigned m s = .ok n ↔ parseUnsigned M s = .ok n ∧ n ≤ m := by
  unfold parseUnsigned
  split
  · simp
  · split
    · simp
    · split
      · exact parseDigits_narrow h (Nat.zero_le _)
      · exact parseDigits_narrow h (Nat.zero_le _)

theorem parseUsizeW_iff {m : Nat} (hm : m ≤ 18446744073709551615) {s : Str} {n : UInt64} :
    parseUsizeW m s = .ok n ↔ parseUsize s = .ok n ∧ n.toNat ≤ m := by
  unfold parseUsizeW parseUsize
  simp only [Res.bind_eq_ok]
  constructor
  · rintro ⟨k, h1, h2⟩
    obtain ⟨h1, h3⟩ := (parseUnsigned_narrow hm).1 h1
    cases h2
    refine ⟨⟨k, h1, rfl⟩, ?_⟩
    rw [UInt64.toNat_ofNat']
    rw [Nat.mod_eq_of_lt (by omega)]
    exact h3
  · rintro ⟨⟨k, h1, h2⟩, h3⟩
    have hk := ((parseUnsigned_narrow (Nat.le_refl _)).1 h1).2
    cases h2
    rw [UInt64.toNat_ofNat', Nat.mod_eq_of_lt (by omega)] at h3
    exact ⟨k, (parseUnsigned_narrow hm).2 ⟨h1, h3⟩, rfl⟩

theorem parseUsizeW_no_panic (m : Nat) (s : Str) : parseUsizeW m s ≠ .panic :=
  Res.bind_no_panic (parseUnsigned_no_panic _ _) (by simp)

namespace HO

theorem SampleSet.parseW_no_panic (m : Nat) (s : Str) : SampleSet.parseW m s ≠ .panic :=
  Res.bind_no_panic (parseUsizeW_no_panic m s) fun _ => nofun
theorem SampleIndex.parseW_no_panic (m : Nat) (s : Str) : SampleIndex.parseW m s ≠ .panic :=
  Res.bind_no_panic (parseUsizeW_no_panic m s) fun _ => nofun

theorem setFits_ofCode {m : Nat} (hm : 3 ≤ m) (n : UInt64) : setFits m (.ofCode n) ↔ n.toNat ≤ m := by
  unfold SampleSet.ofCode
  split
  · subst n; simp [setFits]
  · split
    · subst n; simp [setFits]; omega
    · split
      · subst n; simp [setFits]; omega
      · split
        · subst n; simp [setFits]; omega
        · exact Iff.rfl

theorem indexFits_ofCode {m : Nat} (n : UInt64) : indexFits m (.ofCode n) ↔ n.toNat ≤ m := by
  unfold SampleIndex.ofCode
  split
  · subst n; simp [indexFits]
  · exact Iff.rfl

theorem SampleSet.parseW_iff {m : Nat} (hm : IsUsizeMax m) {s : Str} {a : SampleSet} :
    SampleSet.parseW m s = .ok a ↔ SampleSet.parse s = .ok a ∧ setFits m a := by
  have h3 : 3 ≤ m := by have := hm.1; omega
  unfold SampleSet.parseW SampleSet.parse
  simp only [Res.bind_eq_ok, parseUsizeW_iff hm.2]
  constructor
  · rintro ⟨n, ⟨h1, h2⟩, h⟩; cases h; exact ⟨⟨n, h1, rfl⟩, (setFits_ofCode h3 n).2 h2⟩
  · rintro ⟨⟨n, h1, h⟩, h2⟩; cases h; exact ⟨n, ⟨h1, (setFits_ofCode h3 n).1 h2⟩, rfl⟩

theorem SampleIndex.parseW_iff {m : Nat} (hm : IsUsizeMax m) {s : Str} {a : SampleIndex} :
    SampleIndex.parseW m s = .ok a ↔ SampleIndex.parse s = .ok a ∧ indexFits m a := by
  unfold SampleIndex.parseW SampleIndex.parse
  simp only [Res.bind_eq_ok, parseUsizeW_iff hm.2]
  constructor
  · rintro ⟨n, ⟨h1, h2⟩, h⟩; cases h; exact ⟨⟨n, h1, rfl⟩, (indexFits_ofCode n).2 h2⟩
  · rintro ⟨⟨n, h1, h⟩, h2⟩; cases h; exact ⟨n, ⟨h1, (indexFits_ofCode n).1 h2⟩, rfl⟩

theorem EdgeSet.parseW_no_panic (m : Nat) (s : Str) : EdgeSet.parseW m s ≠ .panic := fun h =>
  (colonPair_good (SampleSet.parseW_no_panic m) (SampleSet.parseW_no_panic m)).toRes h

theorem EdgeSet.parseW_iff {m : Nat} (hm : IsUsizeMax m) {s : Str} {e : EdgeSet} :
    EdgeSet.parseW m s = .ok e ↔ EdgeSet.parse s = .ok e ∧ edgeFits m e := by
  rw [EdgeSet.parse_iff]
  unfold EdgeSet.parseW
  simp only [toRes_eq_ok, colonPair_iff (k := fun a b => (⟨a, b⟩ : EdgeSet)), SampleSet.parseW_iff hm]
  constructor
  · rintro ⟨_, rfl, x, y, a, b, rfl, _, ⟨h1, f1⟩, ⟨h2, f2⟩, rfl⟩; exact ⟨⟨x, y, rfl, h1, h2⟩, f1, f2⟩
  · rintro ⟨⟨x, y, rfl, h1, h2⟩, f1, f2⟩
    exact ⟨[], rfl, x, y, _, _, rfl, num_noC (by decide) (SampleSet.parse_chars h1), ⟨h1, f1⟩, ⟨h2, f2⟩, rfl⟩

theorem EdgeSet.parseW_blank {m : Nat} (hm : IsUsizeMax m) {s : Str} (h : NoC ':' s) :
    ∃ e, EdgeSet.parseW m s = .err e := by
  cases hp : EdgeSet.parseW m s with
  | ok p =>
    obtain ⟨e, he⟩ := EdgeSet.parse_blank h
    rw [((EdgeSet.parseW_iff hm).1 hp).1] at he
    cases he
  | err e => exact ⟨e, rfl⟩
  | panic => exact absurd hp (EdgeSet.parseW_no_panic m s)

end HO

/-- `q` is `p`, but accepts only what satisfies `sm`. -/
def Nar {γ α : Type} (sm : α → Prop) (q p : Parser γ α) : Prop :=
  ∀ s r a, q s = .ok r a ↔ p s = .ok r a ∧ sm a

section
variable {γ α β ε : Type}

theorem Nar.refl (p : Parser γ α) {sm : α → Prop} (h : ∀ a, sm a) : Nar sm p p :=
  fun _ _ a => ⟨fun h' => ⟨h', h a⟩, fun h' => h'.1⟩

theorem Nar.bind {sm : α → Prop} {sm' : β → Prop} {q p : Parser γ α} {g f : α → Parser γ β} (h : Nar sm q p)
    (hf : ∀ a, sm a → Nar sm' (g a) (f a)) (hs : ∀ a s r b, f a s = .ok r b → sm' b → sm a) :
    Nar sm' (q.bind g) (p.bind f) := by
  intro s r b
  simp only [bind_eq_ok]
  constructor
  · rintro ⟨r1, a, h1, h2⟩
    obtain ⟨h1, h4⟩ := (h _ _ _).1 h1
    obtain ⟨h2, h3⟩ := (hf _ h4 _ _ _).1 h2
    exact ⟨⟨r1, a, h1, h2⟩, h3⟩
  · rintro ⟨⟨r1, a, h1, h2⟩, h3⟩
    have h4 := hs _ _ _ _ h2 h3
    exact ⟨r1, a, (h _ _ _).2 ⟨h1, h4⟩, (hf _ h4 _ _ _).2 ⟨h2, h3⟩⟩

/-- The first parser is the same. -/
theorem Nar.bind_left {sm' : β → Prop} (p : Parser γ α) {g f : α → Parser γ β} (hf : ∀ a, Nar sm' (g a) (f a)) :
    Nar sm' (p.bind g) (p.bind f) :=
  Nar.bind (sm := fun _ => True) (Nar.refl p fun _ => trivial) (fun a _ => hf a) fun _ _ _ _ _ _ => trivial

theorem Nar.ret {sm : α → Prop} {a : α} (h : sm a) : Nar sm (ret a : Parser γ α) (ret a) := by
  intro s r b
  rw [ret_eq_ok]
  constructor
  · rintro ⟨rfl, rfl⟩; exact ⟨⟨rfl, rfl⟩, h⟩
  · exact fun h => h.1

theorem Nar.preceded {sm : β → Prop} (p : Parser γ α) {g f : Parser γ β} (hf : Nar sm g f) :
    Nar sm (preceded p g) (preceded p f) := Nar.bind_left p fun _ => hf

theorem Nar.context {sm : α → Prop} {q p : Parser γ α} (c : γ) (h : Nar sm q p) :
    Nar sm (context c q) (context c p) := by
  intro s r a; simp only [context_eq_ok]; exact h s r a

theorem Nar.map {sm : α → Prop} {sm' : β → Prop} {q p : Parser γ α} {f : α → β} (h : Nar sm q p)
    (hs : ∀ a, sm' (f a) ↔ sm a) : Nar sm' (q.map f) (p.map f) := by
  intro s r b
  simp only [map_eq_ok]
  constructor
  · rintro ⟨a, h1, rfl⟩; obtain ⟨h1, h2⟩ := (h _ _ _).1 h1; exact ⟨⟨a, h1, rfl⟩, (hs a).2 h2⟩
  · rintro ⟨⟨a, h1, rfl⟩, h2⟩; exact ⟨a, (h _ _ _).2 ⟨h1, (hs a).1 h2⟩, rfl⟩

theorem Nar.mapRes {sm : β → Prop} (p : Parser γ α) {g f : α → Res ε β}
    (h : ∀ a b, g a = .ok b ↔ f a = .ok b ∧ sm b) : Nar sm (mapRes p g) (mapRes p f) := by
  intro s r b
  simp only [mapRes_eq_ok, h]
  constructor
  · rintro ⟨a, h1, h2, h3⟩; exact ⟨⟨a, h1, h2⟩, h3⟩
  · rintro ⟨⟨a, h1, h2⟩, h3⟩; exact ⟨a, h1, h2, h3⟩

/-- A first alternative that is the same. -/
theorem Nar.alt_cons {sm : α → Prop} {n : Parser γ α} {qs ps : List (Parser γ α)}
    (hn : ∀ s r a, n s = .ok r a → sm a) (h : Nar sm (alt qs) (alt ps)) : Nar sm (alt (n :: qs)) (alt (n :: ps)) := by
  intro s r a
  simp only [alt_cons_eq_ok]
  constructor
  · rintro (h1 | ⟨h1, h2⟩)
    · exact ⟨.inl h1, hn _ _ _ h1⟩
    · obtain ⟨h2, h3⟩ := (h _ _ _).1 h2; exact ⟨.inr ⟨h1, h2⟩, h3⟩
  · rintro ⟨h1 | ⟨h1, h2⟩, h3⟩
    · exact .inl h1
    · exact .inr ⟨h1, (h _ _ _).2 ⟨h2, h3⟩⟩

theorem Nar.alt_one {sm : α → Prop} {q p : Parser γ α} (h : Nar sm q p) : Nar sm (alt [q]) (alt [p]) := by
  intro s r a
  simp only [alt_cons_eq_ok, alt_nil_eq_ok, or_false, and_false]
  exact h s r a

end

namespace HO.HitSample

theorem optField_nar {α : Type} {sm : Option α → Prop} {q p : Parser HitSampleErr (Option α)} (h : Nar sm q p)
    (hn : sm none) : Nar sm (optField q) (optField p) := by
  unfold optField
  refine Nar.alt_cons ?_ (Nar.alt_cons ?_ (Nar.alt_one (Nar.preceded _ h)))
  · intro s r a h; obtain ⟨_, _, rfl⟩ := map_eq_ok.1 h; exact hn
  · intro s r a h; obtain ⟨_, _, rfl⟩ := map_eq_ok.1 h; exact hn

theorem sampleSetPW_nar {m : Nat} (hm : IsUsizeMax m) :
    Nar (fun o => setFits m (o.getD .noCustom)) (sampleSetPW m) sampleSetP :=
  Nar.context _ (Nar.map (sm := setFits m) (Nar.mapRes _ fun _ _ => SampleSet.parseW_iff hm) fun _ => Iff.rfl)

theorem parserW_nar {m : Nat} (hm : IsUsizeMax m) : Nar (sampleFits m) (parserW m) parser := by
  unfold parserW parser
  have none' : ∀ {γ α : Type} {sm : Option α → Prop}, sm none → ∀ s r a,
      ((nothing.map fun _ => none : Parser γ (Option α)) s = .ok r a → sm a) := by
    intro γ α sm hs s r a h; obtain ⟨_, _, rfl⟩ := map_eq_ok.1 h; exact hs
  refine Nar.alt_cons ?_ (Nar.alt_one ?_)
  · intro s r a h; obtain ⟨_, _, rfl⟩ := map_eq_ok.1 h; exact ⟨trivial, trivial, trivial⟩
  refine Nar.bind (sm := fun o => setFits m (o.getD .noCustom))
    (Nar.alt_cons (none' (sm := fun o => setFits m (o.getD .noCustom)) trivial) (Nar.alt_one (sampleSetPW_nar hm))) (fun a ha => ?_) ?_
  · refine Nar.bind (sm := fun o => setFits m (o.getD .noCustom))
      (optField_nar (sm := fun o => setFits m (o.getD .noCustom)) (sampleSetPW_nar hm) trivial) (fun b hb => ?_) ?_
    · refine Nar.bind (sm := fun o => indexFits m (o.getD .timingPoint))
        (optField_nar (sm := fun o => indexFits m (o.getD .timingPoint)) (Nar.context _ (Nar.map (sm := indexFits m)
        (Nar.mapRes _ fun _ _ => SampleIndex.parseW_iff hm) fun _ => Iff.rfl)) trivial) (fun i hi => ?_) ?_
      · exact Nar.bind_left _ fun v => Nar.bind_left _ fun f => Nar.ret ⟨ha, hb, hi⟩
      · intro i s r h hh hs
        simp only [bind_eq_ok, ret_eq_ok] at hh
        obtain ⟨_, _, _, _, _, _, _, rfl⟩ := hh
        exact hs.2.2
    · intro i s r h hh hs
      simp only [bind_eq_ok, ret_eq_ok] at hh
      obtain ⟨_, _, _, _, _, _, _, _, _, _, rfl⟩ := hh
      exact hs.2.1
  · intro i s r h hh hs
    simp only [bind_eq_ok, ret_eq_ok] at hh
    obtain ⟨_, _, _, _, _, _, _, _, _, _, _, _, _, rfl⟩ := hh
    exact hs.1

theorem parseW_iff {m : Nat} (hm : IsUsizeMax m) {s : Str} {h : HitSample} :
    parseW m s = .ok h ↔ parse s = .ok h ∧ sampleFits m h := by
  unfold parseW parse
  simp only [toRes_eq_ok, parserW_nar hm _ _ _]
  constructor
  · rintro ⟨r, h1, h2⟩; exact ⟨⟨r, h1⟩, h2⟩
  · rintro ⟨⟨r, h1⟩, h2⟩; exact ⟨r, h1, h2⟩

theorem parseW_no_panic (m : Nat) (s : Str) : parseW m s ≠ .panic := by
  have U := @Upward.false
  have hf : ∀ {α ε : Type} (c : HitSampleErr) {f : Str → Res ε α}, (∀ s, f s ≠ .panic) →
      Good (fun _ => False) (context c ((mapRes field f).map some)) := by
    intro α ε c f h
    exact (((Good.takeWhile _).toSafe.mapRes h).map _).context _
  intro h
  refine Good.toRes (P := fun _ => False) (p := parserW m) ?_ h
  refine Good.alt (ps := [_]) ?_ ?_
  · intro q hq
    simp at hq
    subst hq
    exact SafeF.nothing.map _
  · refine Good.bind U (Good.alt (ps := [_]) ?_ ?_) fun a => ?_
    · intro q hq
      simp at hq
      subst hq
      exact SafeF.nothing.map _
    · exact hf _ (SampleSet.parseW_no_panic m)
    · exact (optField_good (hf _ (SampleSet.parseW_no_panic m))).bind U fun b =>
        (optField_good (hf _ (SampleIndex.parseW_no_panic m))).bind U fun i =>
        (optField_good (hf _ Volume.parse_no_panic)).bind U fun v =>
        (optField_good ((Good.takeWhile _).map _)).bind U fun f => .ret _

end HO.HitSample

theorem pipeReadsW {m : Nat} (hm : IsUsizeMax m) {p : Str} {l : List HO.EdgeSet} :
    PipeReads (HO.EdgeSet.parseW m) p l ↔ PipeReads HO.EdgeSet.parse p l ∧ ∀ e ∈ l, edgeFits m e := by
  have key : ∀ (ps : List Str) (l : List HO.EdgeSet), ps.map (HO.EdgeSet.parseW m) = l.map .ok ↔
      ps.map HO.EdgeSet.parse = l.map .ok ∧ ∀ e ∈ l, edgeFits m e := by
    intro ps
    induction ps with
    | nil => intro l; cases l <;> simp
    | cons p ps ih =>
      intro l
      cases l with
      | nil => simp
      | cons e l =>
        simp only [List.map_cons, List.cons.injEq, HO.EdgeSet.parseW_iff hm, ih l, List.mem_cons, forall_eq_or_imp]
        constructor
        · rintro ⟨⟨a, b⟩, c, d⟩; exact ⟨⟨a, c⟩, b, d⟩
        · rintro ⟨⟨a, c⟩, b, d⟩; exact ⟨⟨a, b⟩, c, d⟩
  unfold PipeReads
  rw [key]
  constructor
  · rintro (⟨rfl, rfl⟩ | ⟨h1, h2, h3, h4⟩)
    · exact ⟨.inl ⟨rfl, rfl⟩, by simp⟩
    · exact ⟨.inr ⟨h1, h2, h3⟩, h4⟩
  · rintro ⟨⟨rfl, rfl⟩ | ⟨h1, h2, h3⟩, h4⟩
    · exact .inl ⟨rfl, rfl⟩
    · exact .inr ⟨h1, h2, h3, h4⟩

namespace HitObject
variable {D : Type} [DecLib D]

/-- What the hit sample of an object has to satisfy. -/
def OptFits (m : Nat) (o : Option HO.HitSample) : Prop := ∀ h, o = some h → sampleFits m h

theorem hitsamplePW_nar {m : Nat} (hm : IsUsizeMax m) : Nar (OptFits m) (hitsamplePW m) hitsampleP := by
  unfold hitsamplePW hitsampleP
  refine Nar.alt_cons ?_ (Nar.alt_one (Nar.map (sm := sampleFits m) (Nar.preceded _ (Nar.context _
    (Nar.mapRes _ fun _ _ => HO.HitSample.parseW_iff hm))) ?_))
  · intro s r a h; obtain ⟨_, _, rfl⟩ := map_eq_ok.1 h; intro h' hh; cases hh
  · intro a; exact ⟨fun h => h a rfl, fun h b hb => by cases hb; exact h⟩

theorem hitsamplePW_lineEnd {m : Nat} (hm : IsUsizeMax m) :
    LineEnd (hitsamplePW m) (fun qs o => SampleTail qs o ∧ OptFits m o) none := by
  intro r qs x o hr hqs
  rw [hitsamplePW_nar hm, hitsampleP_lineEnd r qs x o hr hqs]
  constructor
  · rintro ⟨⟨rfl, ⟨h1, h2⟩ | ⟨h1, h2, h3, rfl⟩⟩, h4⟩
    · exact ⟨rfl, .inl ⟨h1, h2, h4⟩⟩
    · exact ⟨rfl, .inr ⟨h1, h2, h3, rfl⟩⟩
  · rintro ⟨rfl, ⟨h1, h2, h4⟩ | ⟨h1, h2, h3, rfl⟩⟩
    · exact ⟨⟨rfl, .inl ⟨h1, h2⟩⟩, h4⟩
    · exact ⟨⟨rfl, .inr ⟨h1, h2, h3, rfl⟩⟩, fun _ h => nomatch h⟩

/-- Edge sets and hit sample. -/
def SetFits (m : Nat) (t : List HO.EdgeSet × Option HO.HitSample × Bool) : Prop :=
  (∀ e ∈ t.1, edgeFits m e) ∧ OptFits m t.2.1

theorem edgeSetPW_lineEnd {m : Nat} (hm : IsUsizeMax m) :
    LineEnd (edgeSetPW m) (fun qs t => SetReads qs t ∧ SetFits m t) ([], none, true) := by
  unfold edgeSetPW
  rw [preceded_bind]
  refine lineEnd_alt (fun o => ?_) ?_
  · constructor
    · exact fun h => h.1
    · rintro rfl; exact ⟨rfl, by simp, fun _ h => nomatch h⟩
  rintro q qs x ⟨es, h, b⟩ hq hqs
  have key := fun (es : List HO.EdgeSet) (h : Option HO.HitSample) =>
    pipeThen_iff (c := HOErr.invalidEdgeSet) (x := x) (l := es) (o := h) (g := fun es h => (es, h, false))
    (fun p hp => HO.EdgeSet.parseW_blank hm (space_noColon hp)) (HO.EdgeSet.parseW_no_panic m) (hitsamplePW_lineEnd hm)
    (fun o => ⟨fun h => h.1, fun h => ⟨h, by subst h; exact fun _ h => nomatch h⟩⟩) hq hqs
    (by intro l o l' o' h; cases h; exact ⟨rfl, rfl⟩)
  cases b with
  | false =>
    rw [key, pipeReadsW hm]
    simp only [SetReads, SetFits, true_and]
    constructor
    · rintro ⟨rfl, ⟨⟨h1, h2⟩, h3, h4⟩ | ⟨h1, rfl, rfl, rfl⟩⟩
      · exact ⟨rfl, .inl ⟨h1, h3⟩, h2, h4⟩
      · exact ⟨rfl, .inr ⟨h1, rfl, rfl, rfl⟩, by simp, fun _ h => nomatch h⟩
    · rintro ⟨rfl, ⟨h1, h3⟩ | ⟨h1, rfl, rfl, rfl⟩, h2, h4⟩
      · exact ⟨rfl, .inl ⟨⟨h1, h2⟩, h3, h4⟩⟩
      · exact ⟨rfl, .inr ⟨h1, rfl, rfl, rfl⟩⟩
  | true =>
    simp only [SetReads, Bool.true_eq_false, false_and, and_false, iff_false]
    intro h'
    simp only [bind_eq_ok, ret_eq_ok] at h'
    obtain ⟨_, _, _, _, _, _, _, h'⟩ := h'
    cases h'

theorem edgeSetPW_nar {m : Nat} (hm : IsUsizeMax m) : Nar (SetFits m) (edgeSetPW m) edgeSetP := by
  intro s x t
  cases hs : splitOnC ',' s with
  | nil => exact absurd hs (splitOnC_ne_nil _ _)
  | cons p qs =>
    obtain ⟨rfl, hp, hqs⟩ := splitOnC_iff.1 hs
    rw [edgeSetPW_lineEnd hm p qs x t hp hqs, edgeSetP_lineEnd p qs x t hp hqs]
    constructor
    · rintro ⟨rfl, ⟨h1, h2, h4⟩ | ⟨h1, h2, h3, rfl⟩⟩
      · exact ⟨⟨rfl, .inl ⟨h1, h2⟩⟩, h4⟩
      · exact ⟨⟨rfl, .inr ⟨h1, h2, h3, rfl⟩⟩, by simp, fun _ h => nomatch h⟩
    · rintro ⟨⟨rfl, ⟨h1, h2⟩ | ⟨h1, h2, h3, rfl⟩⟩, h4⟩
      · exact ⟨rfl, .inl ⟨h1, h2, h4⟩⟩
      · exact ⟨rfl, .inr ⟨h1, h2, h3, rfl⟩⟩

theorem edgePW_nar {m : Nat} (hm : IsUsizeMax m) :
    Nar (fun t => SetFits m (t.2.1, t.2.2.1, t.2.2.2.2)) (edgePW m) edgeP := by
  unfold edgePW edgeP
  refine Nar.alt_cons ?_ (Nar.alt_one (Nar.bind_left _ fun ss => Nar.bind (sm := SetFits m) (edgeSetPW_nar hm)
    (fun t ht => Nar.ret ht) ?_))
  · intro s r a h; obtain ⟨_, _, rfl⟩ := map_eq_ok.1 h; exact ⟨by simp, fun _ h => nomatch h⟩
  · intro t s r b hh hs
    obtain ⟨_, rfl⟩ := ret_eq_ok.1 hh
    exact hs

theorem sliderPW_nar {m : Nat} (hm : IsUsizeMax m) (v : Nat) :
    Nar (fun t => (∀ e ∈ t.1.edgeSets, edgeFits m e) ∧ OptFits m t.2) (sliderPW m v : Parser HOErr (SlideParams D × _))
      (sliderP v) := by
  unfold sliderPW sliderP
  refine Nar.bind_left _ fun c => Nar.bind_left _ fun n => Nar.bind_left _ fun l => Nar.bind (edgePW_nar hm)
    (fun t ht => Nar.ret ht) ?_
  intro t s r b hh hs
  obtain ⟨_, rfl⟩ := ret_eq_ok.1 hh
  exact hs

theorem spinnerPW_nar {m : Nat} (hm : IsUsizeMax m) (v : Nat) :
    Nar (fun t => OptFits m t.2) (spinnerPW m v : Parser HOErr (Decimal D × _)) (spinnerP v) := by
  unfold spinnerPW spinnerP
  refine Nar.bind_left _ fun c => Nar.bind (hitsamplePW_nar hm) (fun t ht => Nar.ret ht) ?_
  intro t s r b hh hs
  obtain ⟨_, rfl⟩ := ret_eq_ok.1 hh
  exact hs

theorem holdPW_nar {m : Nat} (hm : IsUsizeMax m) (v : Nat) :
    Nar (fun t => OptFits m t.2) (holdPW m v : Parser HOErr (Decimal D × _)) (holdP v) := by
  unfold holdPW holdP
  refine Nar.bind_left _ fun c => Nar.bind (sm := OptFits m) (Nar.alt_cons ?_ (Nar.alt_one (Nar.map (sm := sampleFits m)
    (Nar.preceded _ (Nar.context _ (Nar.mapRes _ fun _ _ => HO.HitSample.parseW_iff hm))) ?_))) (fun t ht => Nar.ret ht) ?_
  · intro s r a h; obtain ⟨_, _, rfl⟩ := map_eq_ok.1 h; intro h' hh; cases hh
  · intro a; exact ⟨fun h => h a rfl, fun h b hb => by cases hb; exact h⟩
  · intro t s r b hh hs
    obtain ⟨_, rfl⟩ := ret_eq_ok.1 hh
    exact hs

theorem toRes_nar {γ α β : Type} {sm : α → Prop} {sm' : β → Prop} {q p : Parser γ α} (h : Nar sm q p) {f : α → β}
    (hs : ∀ a, sm' (f a) ↔ sm a) {s : Str} {b : β} :
    ((q s).toRes >>= fun a => .ok (f a)) = .ok b ↔ ((p s).toRes >>= fun a => .ok (f a)) = .ok b ∧ sm' b := by
  simp only [Res.bind_eq_ok', toRes_eq_ok]
  constructor
  · rintro ⟨a, ⟨r, h1⟩, h2⟩
    cases h2
    obtain ⟨h1, h3⟩ := (h _ _ _).1 h1
    exact ⟨⟨a, ⟨r, h1⟩, rfl⟩, (hs a).2 h3⟩
  · rintro ⟨⟨a, ⟨r, h1⟩, h2⟩, h3⟩
    cases h2
    exact ⟨a, ⟨r, (h _ _ _).2 ⟨h1, (hs a).1 h3⟩⟩, rfl⟩

theorem finishW_iff {m : Nat} (hm : IsUsizeMax m) {v : Nat} {pos : Position D} {time : Decimal D} {t : Int32}
    {hs : HO.HitSound} {s : Str} {o : HitObject D} :
    finishW m v pos time t hs s = .ok o ↔ finish v pos time t hs s = .ok o ∧ objectFits m o := by
  unfold finishW finish
  cases HO.ComboSkipCount.new (skipOf t) with
  | none => simp
  | some sk =>
    simp only
    by_cases h0 : nthBit t 0
    · rw [if_pos h0, if_pos h0]
      exact toRes_nar (hitsamplePW_nar hm) fun a => ⟨fun h => h.1, fun h => ⟨h, fun _ h => nomatch h⟩⟩
    rw [if_neg h0, if_neg h0]
    by_cases h1 : nthBit t 1
    · rw [if_pos h1, if_pos h1]
      exact toRes_nar (sliderPW_nar hm v) fun a => ⟨fun h => ⟨h.2, h.1⟩, fun h => ⟨h.2, h.1⟩⟩
    rw [if_neg h1, if_neg h1]
    by_cases h3 : nthBit t 3
    · rw [if_pos h3, if_pos h3]
      exact toRes_nar (spinnerPW_nar hm v) fun a => ⟨fun h => h.1, fun h => ⟨h, fun _ h => nomatch h⟩⟩
    rw [if_neg h3, if_neg h3]
    by_cases h7 : nthBit t 7
    · rw [if_pos h7, if_pos h7]
      exact toRes_nar (holdPW_nar hm v) fun a => ⟨fun h => h.1, fun h => ⟨h, fun _ h => nomatch h⟩⟩
    rw [if_neg h7, if_neg h7]
    simp

theorem parseW_iff {m : Nat} (hm : IsUsizeMax m) {v : Nat} {s : Str} {o : HitObject D} :
    parseW m v s = .ok o ↔ parse v s = .ok o ∧ objectFits m o := by
  unfold parseW parse
  cases (headP v s : PRes HOErr (Position D × Decimal D × Int32 × HO.HitSound)) with
  | ok r t => obtain ⟨pos, time, t, hs⟩ := t; exact finishW_iff hm
  | error e =>
    simp only
    constructor
    · intro h; obtain ⟨_, h⟩ := toRes_eq_ok.1 h; cases h
    · rintro ⟨h, _⟩; obtain ⟨_, h⟩ := toRes_eq_ok.1 h; cases h
  | failure e =>
    simp only
    constructor
    · intro h; obtain ⟨_, h⟩ := toRes_eq_ok.1 h; cases h
    · rintro ⟨h, _⟩; obtain ⟨_, h⟩ := toRes_eq_ok.1 h; cases h
  | panic => simp

/-! ### Panics -/

theorem hitsamplePW_good {P} (hP : Upward P) (m : Nat) : Good P (hitsamplePW m) := by
  refine Good.alt (ps := [_]) ?_ ?_
  · intro p hp
    simp at hp
    subst hp
    exact SafeF.nothing.map _
  · exact ((SafeF.comma.toSafe.context _).preceded hP
      ((Good.rest.toSafe.mapRes (HO.HitSample.parseW_no_panic m)).context _)).map _

theorem edgeSetPW_good {P} (hP : Upward P) (m : Nat) : Good P (edgeSetPW m) := by
  refine Good.alt (ps := [_]) ?_ ?_
  · intro p hp
    simp at hp
    subst hp
    exact SafeF.nothing.map _
  · exact ((SafeF.comma.toSafe.context _).preceded hP
      ((SafeF.pipeVec hP (HO.EdgeSet.parseW_no_panic m)).toSafe.context _)).bind hP fun es =>
      (hitsamplePW_good hP m).bind hP fun h => .ret _

theorem edgePW_good {P} (hP : Upward P) (m : Nat) : Good P (edgePW m) := by
  refine Good.alt (ps := [_]) ?_ ?_
  · intro p hp
    simp at hp
    subst hp
    exact SafeF.nothing.map _
  · exact ((SafeF.comma.toSafe.context _).preceded hP
      ((SafeF.pipeVec hP HO.HitSound.parse_no_panic).toSafe.context _)).bind hP fun es =>
      (edgeSetPW_good hP m).bind hP fun h => .ret _

theorem sliderPW_good {P} (hP : Upward P) (m v : Nat) : Good P (sliderPW m v : Parser HOErr (SlideParams D × _)) :=
  (curveP_good hP v).bind hP fun c => (Good.commaThen hP parseI32_no_panic).bind hP fun n =>
    (Good.commaThen hP decParse_no_panic).bind hP fun len => (edgePW_good hP m).bind hP fun e => .ret _

theorem toRes_mapP_panic_iff {γ α β δ : Type} {p : Parser γ α} {f : α → Option β} {k : β → Parser γ δ} {s : Str}
    (hp : Good (fun _ => False) p) (hk : ∀ b, Good (fun _ => False) (k b)) :
    (((p.mapP f).bind k) s).toRes = .panic ↔ ∃ r a, p s = .ok r a ∧ f a = none := by
  constructor
  · exact toRes_mapP_panic hp hk
  · intro h
    rw [bind_app, mapP_eq_panic.2 (.inr h)]
    rfl

theorem spinnerPW_panic {m v : Nat} {s : Str} :
    (spinnerPW m v s : PRes HOErr (Decimal D × _)).toRes = .panic ↔
      (spinnerP v s : PRes HOErr (Decimal D × _)).toRes = .panic := by
  have U := @Upward.false
  unfold spinnerPW spinnerP
  rw [toRes_mapP_panic_iff (Good.commaThen U decParse_no_panic) fun t => (hitsamplePW_good U m).bind U fun h => .ret _,
    toRes_mapP_panic_iff (Good.commaThen U decParse_no_panic) fun t => (hitsampleP_good U).bind U fun h => .ret _]

theorem holdPW_panic {m v : Nat} {s : Str} :
    (holdPW m v s : PRes HOErr (Decimal D × _)).toRes = .panic ↔
      (holdP v s : PRes HOErr (Decimal D × _)).toRes = .panic := by
  have U := @Upward.false
  unfold holdPW holdP
  rw [preceded_bind, preceded_bind]
  unfold preceded
  rw [bind_app, bind_app]
  cases (context HOErr.missingEndTime comma : Parser HOErr Str) s with
  | ok r a =>
    simp only
    rw [toRes_mapP_panic_iff, toRes_mapP_panic_iff]
    · exact ((SafeF.takeUntil _).toSafe.mapRes decParse_no_panic).context _
    · exact (fun t => (Good.alt (ps := [_]) (by
        intro p hp
        simp at hp
        subst hp
        exact SafeF.nothing.map _) ((((SafeF.char _).toSafe.context _).preceded U
          ((Good.rest.toSafe.mapRes HO.HitSample.parse_no_panic).context _)).map _)).bind U fun h => .ret _)
    · exact ((SafeF.takeUntil _).toSafe.mapRes decParse_no_panic).context _
    · exact (fun t => (Good.alt (ps := [_]) (by
        intro p hp
        simp at hp
        subst hp
        exact SafeF.nothing.map _) ((((SafeF.char _).toSafe.context _).preceded U
          ((Good.rest.toSafe.mapRes (HO.HitSample.parseW_no_panic m)).context _)).map _)).bind U fun h => .ret _)
  | error e => exact Iff.rfl
  | failure e => exact Iff.rfl
  | panic => exact Iff.rfl

theorem bind_ok_panic {ε α β : Type} {x : Res ε α} {f : α → β} : (x >>= fun a => .ok (f a)) = (.panic : Res ε β) ↔ x = .panic := by
  cases x with
  | ok a => exact ⟨(nomatch ·), (nomatch ·)⟩
  | err e => exact ⟨(nomatch ·), (nomatch ·)⟩
  | panic => exact ⟨fun _ => rfl, fun _ => rfl⟩

theorem parseW_panic {m v : Nat} {s : Str} :
    (parseW m v s : Res HOErr (HitObject D)) = .panic ↔ (parse v s : Res HOErr (HitObject D)) = .panic := by
  have U := @Upward.false
  unfold parseW parse
  cases (headP v s : PRes HOErr (Position D × Decimal D × Int32 × HO.HitSound)) with
  | ok r t =>
    obtain ⟨pos, time, t, hs⟩ := t
    simp only
    unfold finishW finish
    cases HO.ComboSkipCount.new (skipOf t) with
    | none => simp
    | some sk =>
      simp only
      by_cases h0 : nthBit t 0
      · rw [if_pos h0, if_pos h0, bind_ok_panic, bind_ok_panic]
        exact ⟨fun h => absurd h (hitsamplePW_good U m).toRes, fun h => absurd h (hitsampleP_good U).toRes⟩
      rw [if_neg h0, if_neg h0]
      by_cases h1 : nthBit t 1
      · rw [if_pos h1, if_pos h1, bind_ok_panic, bind_ok_panic]
        exact ⟨fun h => absurd h (sliderPW_good U m v).toRes, fun h => absurd h (sliderP_good U v).toRes⟩
      rw [if_neg h1, if_neg h1]
      by_cases h3 : nthBit t 3
      · rw [if_pos h3, if_pos h3, bind_ok_panic, bind_ok_panic]
        exact spinnerPW_panic
      rw [if_neg h3, if_neg h3]
      by_cases h7 : nthBit t 7
      · rw [if_pos h7, if_pos h7, bind_ok_panic, bind_ok_panic]
        exact holdPW_panic
      rw [if_neg h7, if_neg h7]
  | error e => exact Iff.rfl
  | failure e => exact Iff.rfl
  | panic => simp

end HitObject
end Osu
