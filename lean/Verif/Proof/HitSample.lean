/-
Hit samples, edge sets and curve points: exact meaning of the text, printing, panic freedom.
-/
import Verif.Proof.Pieces

namespace Osu
open Parser
namespace HO

theorem SampleSet.parse_chars {s : Str} {a} (h : SampleSet.parse s = .ok a) : AllC isNumChar s := by
  obtain ⟨n, h, _⟩ := Res.bind_eq_ok.1 h; exact (parseUsize_chars h).2
theorem SampleIndex.parse_chars {s : Str} {a} (h : SampleIndex.parse s = .ok a) : AllC isNumChar s := by
  obtain ⟨n, h, _⟩ := Res.bind_eq_ok.1 h; exact (parseUsize_chars h).2
theorem HitSound.parse_chars {s : Str} {a} (h : HitSound.parse s = .ok a) : AllC isNumChar s := by
  obtain ⟨n, h, _⟩ := Res.bind_eq_ok.1 h; exact (parseU8_chars h).2
theorem Volume.parse_chars {s : Str} {a} (h : Volume.parse s = .ok a) : AllC isNumChar s := by
  unfold Volume.parse at h
  split at h
  · cases h
  · cases h
  · rename_i v hv; exact (parseU8_chars hv).2

theorem SampleSet.parse_no_panic (s : Str) : SampleSet.parse s ≠ .panic :=
  Res.bind_no_panic (parseUsize_no_panic s) fun _ => nofun
theorem SampleIndex.parse_no_panic (s : Str) : SampleIndex.parse s ≠ .panic :=
  Res.bind_no_panic (parseUsize_no_panic s) fun _ => nofun
theorem HitSound.parse_no_panic (s : Str) : HitSound.parse s ≠ .panic :=
  Res.bind_no_panic (parseU8_no_panic s) fun _ => nofun
theorem Volume.parse_no_panic (s : Str) : Volume.parse s ≠ .panic := by
  unfold Volume.parse
  split
  · simp
  · rename_i h; exact absurd h (parseU8_no_panic s)
  · unfold Volume.new
    split
    · split
      · simp
      · split <;> simp
    · simp
theorem CurveType.parse_no_panic (s : Str) : CurveType.parse s ≠ .panic := by
  unfold CurveType.parse
  split
  · simp
  · split
    · simp
    · split
      · simp
      · split <;> simp

theorem SampleSet.parse_iff {s : Str} {x : SampleSet} :
    SampleSet.parse s = .ok x ↔ ∃ n, parseUsize s = .ok n ∧ x = .ofCode n := by
  unfold SampleSet.parse
  rw [Res.bind_eq_ok]
  constructor
  · rintro ⟨n, h, h'⟩; cases h'; exact ⟨n, h, rfl⟩
  · rintro ⟨n, h, rfl⟩; exact ⟨n, h, rfl⟩

theorem SampleSet.ofCode_named (n : UInt64) : HOSetNamed (.ofCode n) := by
  unfold SampleSet.ofCode
  split
  · trivial
  · split
    · trivial
    · split
      · trivial
      · split
        · trivial
        · rename_i h0 h1 h2 h3; exact ⟨h0, h1, h2, h3⟩

theorem SampleSet.named_parse {s : Str} {x : SampleSet} (h : SampleSet.parse s = .ok x) : HOSetNamed x := by
  obtain ⟨n, _, rfl⟩ := SampleSet.parse_iff.1 h; exact ofCode_named n

theorem SampleSet.round {x : SampleSet} (h : HOSetNamed x) : SampleSet.parse x.shw = .ok x := by
  rw [SampleSet.parse_iff]
  refine ⟨x.code, parseUsize_usizeToStr _, ?_⟩
  cases x with
  | other n => obtain ⟨h0, h1, h2, h3⟩ := h; simp [SampleSet.code, SampleSet.ofCode, h0, h1, h2, h3]
  | _ => rfl

theorem SampleIndex.round {x : SampleIndex} (h : x ≠ .index 0) : SampleIndex.parse x.shw = .ok x := by
  unfold SampleIndex.parse SampleIndex.shw
  rw [parseUsize_usizeToStr]
  cases x with
  | timingPoint => rfl
  | index n =>
    have : n ≠ 0 := by rintro rfl; exact h rfl
    simp [Res.bind, SampleIndex.code, SampleIndex.ofCode, this]

theorem SampleIndex.valid_parse {s : Str} {x : SampleIndex} (h : SampleIndex.parse s = .ok x) : x ≠ .index 0 := by
  obtain ⟨n, _, h⟩ := Res.bind_eq_ok.1 h
  cases h
  unfold SampleIndex.ofCode
  split
  · simp
  · rename_i hn; intro h; cases h; exact hn rfl

theorem Volume.round {x : Volume} (h : ∀ n, x.val = some n → 1 ≤ n.toNat ∧ n.toNat ≤ 100) :
    Volume.parse x.shw = .ok x := by
  obtain ⟨v⟩ := x
  unfold Volume.parse Volume.shw
  cases v with
  | none => rfl
  | some n =>
    obtain ⟨h1, h2⟩ := h n rfl
    have h0 : n ≠ 0 := by rintro rfl; simp at h1
    have h3 : ¬ n > 100 := by
      intro h; have : (100 : UInt8).toNat < n.toNat := h; simp at this; omega
    simp only [parseU8_u8ToStr, h0, if_false, Volume.new]
    rw [if_neg h3]

theorem Volume.valid_parse {s : Str} {x : Volume} (h : Volume.parse s = .ok x) :
    ∀ n, x.val = some n → 1 ≤ n.toNat ∧ n.toNat ≤ 100 := by
  unfold Volume.parse at h
  split at h
  · cases h
  · cases h
  · rename_i v hv
    by_cases h0 : v = 0
    · rw [if_pos h0] at h; cases h; intro n hn; cases hn
    · rw [if_neg h0] at h
      simp only [Volume.new, if_neg h0] at h
      split at h
      · cases h
      · rename_i h3
        cases h
        intro n hn
        have hn : v = n := by simpa using hn
        subst hn
        have h3 : ¬ (100 : UInt8).toNat < v.toNat := h3
        have h0 : v.toNat ≠ 0 := fun h => h0 (UInt8.toNat_inj.1 h)
        simp at h3; omega

theorem HitSound.round (h : HitSound) : HitSound.parse h.shw = .ok h := by
  obtain ⟨a, b, c, d⟩ := h
  cases a <;> cases b <;> cases c <;> cases d <;> decide

/-! ### Edge sets and curve points -/

theorem num_noC {c : Char} (hc : isNumChar c = false) {s : Str} (h : AllC isNumChar s) : NoC c s :=
  h.mono fun d hd => by
    have : d ≠ c := by rintro rfl; rw [hc] at hd; cases hd
    simpa using this

theorem colonPair_iff {γ α β ε1 ε2 : Type} {c1 c2 c3 : γ} {f : Str → Res ε1 α} {g : Str → Res ε2 β} {s r : Str}
    {δ : Type} {k : α → β → δ} {d : δ} :
    ((terminated (context c1 (mapRes (Parser.takeWhile fun c => !(c == ':')) f))
      (context c2 (tag [':']))).bind fun a =>
    (context c3 (restType g)).bind fun b => ret (k a b)) s = .ok r d ↔
      r = [] ∧ ∃ x y a b, s = x ++ ':' :: y ∧ NoC ':' x ∧ f x = .ok a ∧ g y = .ok b ∧ d = k a b := by
  simp only [bind_eq_ok, terminated_eq_ok, context_eq_ok, mapRes_eq_ok, takeWhile_eq_ok, tag_eq_ok, restType_eq_ok, ret_eq_ok]
  constructor
  · rintro ⟨r1, a, ⟨r2, _, ⟨x, ⟨rfl, hx, _⟩, hf⟩, rfl, _⟩, r3, b, ⟨rfl, hg⟩, rfl, rfl⟩
    exact ⟨rfl, x, r1, a, b, by simp, hx, hf, hg, rfl⟩
  · rintro ⟨rfl, x, y, a, b, rfl, hx, hf, hg, rfl⟩
    exact ⟨y, a, ⟨':' :: y, [':'], ⟨x, ⟨rfl, hx, .cons (by simp)⟩, hf⟩, rfl, rfl⟩, [], b, ⟨rfl, hg⟩, rfl, rfl⟩

theorem EdgeSet.parse_iff {s : Str} {e : EdgeSet} :
    EdgeSet.parse s = .ok e ↔ ∃ x y, s = x ++ ':' :: y ∧ SampleSet.parse x = .ok e.normalSet ∧
      SampleSet.parse y = .ok e.additionSet := by
  unfold EdgeSet.parse
  simp only [toRes_eq_ok, colonPair_iff (k := fun a b => (⟨a, b⟩ : EdgeSet))]
  constructor
  · rintro ⟨_, rfl, x, y, a, b, rfl, _, h1, h2, rfl⟩; exact ⟨x, y, rfl, h1, h2⟩
  · rintro ⟨x, y, rfl, h1, h2⟩
    exact ⟨[], rfl, x, y, _, _, rfl, num_noC (by decide) (SampleSet.parse_chars h1), h1, h2, rfl⟩

theorem EdgeSet.round {e : EdgeSet} (h1 : HOSetNamed e.normalSet) (h2 : HOSetNamed e.additionSet) :
    EdgeSet.parse e.shw = .ok e := by
  rw [EdgeSet.parse_iff]
  exact ⟨e.normalSet.shw, e.additionSet.shw, by simp [EdgeSet.shw], SampleSet.round h1, SampleSet.round h2⟩

theorem colonPair_good {γ α β ε1 ε2 : Type} {c1 c2 c3 : γ} {f : Str → Res ε1 α} {g : Str → Res ε2 β}
    {δ : Type} {k : α → β → δ} (hf : ∀ s, f s ≠ .panic) (hg : ∀ s, g s ≠ .panic) :
    Good (fun _ => False) ((terminated (context c1 (mapRes (Parser.takeWhile fun c => !(c == ':')) f))
      (context c2 (tag [':']))).bind fun a =>
    (context c3 (restType g)).bind fun b => ret (k a b)) := by
  have U := @Upward.false
  exact (Good.terminated U ((((Good.takeWhile _).toSafe.mapRes hf)).context _) ((SafeF.tag _).toSafe.context _)).bind U fun a =>
    ((SafeF.restType hg).toSafe.context _).bind U fun b => .ret _

theorem EdgeSet.parse_no_panic (s : Str) : EdgeSet.parse s ≠ .panic := fun h =>
  (colonPair_good SampleSet.parse_no_panic SampleSet.parse_no_panic).toRes h

section
variable {D : Type} [DecLib D]

theorem CurvePoint.parse_iff {s : Str} {p : CurvePoint D} :
    CurvePoint.parse s = .ok p ↔ ∃ x y, s = x ++ ':' :: y ∧ NoC ':' x ∧ p.pos.x = Decimal.ofStr x ∧ p.pos.y = Decimal.ofStr y := by
  unfold CurvePoint.parse
  simp only [toRes_eq_ok, colonPair_iff (k := fun a b => (⟨⟨a, b⟩⟩ : CurvePoint D))]
  constructor
  · rintro ⟨_, rfl, x, y, a, b, rfl, hx, h1, h2, rfl⟩
    cases h1; cases h2
    exact ⟨x, y, rfl, hx, rfl, rfl⟩
  · rintro ⟨x, y, rfl, hx, h1, h2⟩
    refine ⟨[], rfl, x, y, _, _, rfl, hx, rfl, rfl, ?_⟩
    obtain ⟨⟨a, b⟩⟩ := p
    simp only at h1 h2
    subst h1 h2; rfl

theorem CurvePoint.parse_no_panic (s : Str) : (CurvePoint.parse s : Res _ (CurvePoint D)) ≠ .panic := fun h =>
  (colonPair_good (f := Decimal.parse) (g := Decimal.parse) nofun nofun).toRes h

theorem CurvePoint.parse_blank {s : Str} (h : NoC ':' s) : ∃ e, (CurvePoint.parse s : Res _ (CurvePoint D)) = .err e := by
  cases hp : (CurvePoint.parse s : Res _ (CurvePoint D)) with
  | ok p =>
    obtain ⟨x, y, rfl, _⟩ := CurvePoint.parse_iff.1 hp
    have := h ':' (by simp)
    simp at this
  | err e => exact ⟨e, rfl⟩
  | panic => exact absurd hp (CurvePoint.parse_no_panic s)

end

theorem EdgeSet.parse_blank {s : Str} (h : NoC ':' s) : ∃ e, EdgeSet.parse s = .err e := by
  cases hp : EdgeSet.parse s with
  | ok p =>
    obtain ⟨x, y, rfl, _⟩ := EdgeSet.parse_iff.1 hp
    have := h ':' (by simp)
    simp at this
  | err e => exact ⟨e, rfl⟩
  | panic => exact absurd hp (EdgeSet.parse_no_panic s)

theorem HitSound.parse_blank {s : Str} (h : AllC isSpace s) : ∃ e, HitSound.parse s = .err e := by
  cases hp : HitSound.parse s with
  | ok p =>
    obtain ⟨n, hn, _⟩ := Res.bind_eq_ok.1 hp
    obtain ⟨h1, h2⟩ := parseU8_chars hn
    cases s with
    | nil => exact absurd rfl h1
    | cons c s =>
      have a := h.of_cons.1
      have b := h2.of_cons.1
      have : c = ' ' ∨ c = '\t' := by simpa [isSpace] using a
      rcases this with rfl | rfl <;> exact absurd b (by decide)
  | err e => exact ⟨e, rfl⟩
  | panic => exact absurd hp (HitSound.parse_no_panic s)

/-! ### Hit samples -/

namespace HitSample

/-- A field parser that reads one piece. -/
def ReadsPiece {α ε : Type} (p : Parser HitSampleErr (Option α)) (f : Str → Res ε α) : Prop :=
  ∀ (q : Str) (qs : List Str) (r : Str) (o : Option α), NoC ':' q →
    (p (q ++ preC ':' qs) = .ok r o ↔ r = preC ':' qs ∧ ∃ x, f q = .ok x ∧ o = some x)

theorem readsPiece_mapRes {α ε : Type} (c : HitSampleErr) (f : Str → Res ε α) :
    ReadsPiece (context c ((mapRes field f).map some)) f := by
  intro q qs r o hq
  unfold field
  simp only [context_eq_ok, map_eq_ok, mapRes_eq_ok]
  constructor
  · rintro ⟨a, ⟨t, h, hf⟩, rfl⟩
    rw [takeWhile_pieces hq] at h
    cases h
    exact ⟨rfl, a, hf, rfl⟩
  · rintro ⟨rfl, x, hf, rfl⟩
    exact ⟨x, ⟨q, takeWhile_pieces hq, hf⟩, rfl⟩

theorem readsPiece_field : ReadsPiece (field.map some) (fun s => (.ok s : Res Unit Str)) := by
  intro q qs r o hq
  unfold field
  simp only [map_eq_ok]
  constructor
  · rintro ⟨a, h, rfl⟩
    rw [takeWhile_pieces hq] at h
    cases h
    exact ⟨rfl, q, rfl, rfl⟩
  · rintro ⟨rfl, x, hf, rfl⟩
    cases hf
    exact ⟨q, takeWhile_pieces hq, rfl⟩

/-- The value of an optional field. -/
def optIs {ε α : Type} (f : Str → Res ε α) : Option Str → Option α → Prop
  | none, o => o = none
  | some p, o => ∃ x, f p = .ok x ∧ o = some x

theorem optField_iff {α ε : Type} {p : Parser HitSampleErr (Option α)} {f : Str → Res ε α} (hp : ReadsPiece p f)
    {qs : List Str} (hqs : ∀ q ∈ qs, NoC ':' q) {r : Str} {o : Option α} :
    optField p (preC ':' qs) = .ok r o ↔
      ∃ qs', r = preC ':' qs' ∧ (∀ q ∈ qs', NoC ':' q) ∧ dropBlankLast qs' = (dropBlankLast qs).tail ∧
        optIs f (dropBlankLast qs)[0]? o ∧ qs' = if dropBlankLast qs = [] then [] else qs.tail := by
  have hsp : isSpace ':' = false := by decide
  have hsep : ∀ {α : Type} (p : Parser HitSampleErr α) (q : Str) (qs : List Str) r a,
      preceded sep p (preC ':' (q :: qs)) = .ok r a ↔ p (q ++ preC ':' qs) = .ok r a := by
    intro α p q qs r a
    unfold sep
    simp only [preceded_eq_ok, tag_eq_ok, preC_cons]
    constructor
    · rintro ⟨r1, _, ⟨h, _⟩, h'⟩; cases h; exact h'
    · intro h; exact ⟨_, _, ⟨rfl, rfl⟩, h⟩
  unfold optField
  cases qs with
  | nil =>
    have h1 : ∃ e, ((preceded sep nothing).map fun _ => (none : Option α)) ([] : Str) = .error e :=
      map_err (preceded_err ⟨_, rfl⟩)
    rw [preC_nil, alt_cons_eq_ok, alt_cons_eq_ok]
    have h2 : ((nothing : Parser HitSampleErr Str).map fun _ => (none : Option α)) [] = .ok [] none := rfl
    obtain ⟨e, h1⟩ := h1
    rw [h1, h2]
    simp only [dropBlankLast]
    constructor
    · rintro (h | ⟨_, h | ⟨h, _⟩⟩)
      · cases h
      · cases h; exact ⟨[], rfl, by simp, rfl, rfl, by simp⟩
      · obtain ⟨_, h⟩ := h; cases h
    · rintro ⟨qs', rfl, _, _, h, h'⟩
      simp at h'
      subst h'
      cases h
      exact .inr ⟨⟨_, rfl⟩, .inl rfl⟩
  | cons q qs =>
    have hq := hqs q (by simp)
    by_cases hd : dropBlankLast (q :: qs) = []
    · -- blank last piece
      rcases dropBlankLast_nil.1 hd with h | ⟨q', h, hb⟩
      · cases h
      cases h
      have h1 : ((preceded sep nothing).map fun _ => (none : Option α)) (preC ':' [q]) = .ok [] none := by
        rw [map_eq_ok]
        refine ⟨[], ?_, rfl⟩
        rw [hsep, preC_nil, List.append_nil, nothing_eq_ok]
        exact ⟨blanks_iff.1 hb, rfl, rfl⟩
      rw [alt_cons_eq_ok, h1, hd]
      constructor
      · rintro (h | ⟨⟨_, h⟩, _⟩)
        · cases h; exact ⟨[], rfl, by simp, rfl, rfl, by simp⟩
        · cases h
      · rintro ⟨qs', rfl, _, _, h, h'⟩
        simp at h'
        subst h'
        cases h
        exact .inl rfl
    · have h1 : ∃ e, ((preceded sep nothing).map fun _ => (none : Option α)) (preC ':' (q :: qs)) = .error e := by
        refine map_err ?_
        rw [preC_cons]
        refine preceded_err' (tag1_ok _ _) (nothing_err ?_)
        intro h
        apply hd
        have hq' : AllC isSpace q := fun c hc => h c (by simp [hc])
        have hqs' : qs = [] := space_preC hsp (c := ':') fun c hc => h c (by simp [hc])
        subst hqs'
        exact dropBlankLast_nil.2 (.inr ⟨q, rfl, blanks_iff.2 hq'⟩)
      have h2 : ∃ e, ((nothing : Parser HitSampleErr Str).map fun _ => (none : Option α)) (preC ':' (q :: qs)) = .error e := by
        refine map_err ?_
        rw [preC_cons]
        exact nothing_err_cons hsp
      have h3 : preceded (context .missingSeparator sep) p (preC ':' (q :: qs)) = .ok r o ↔ p (q ++ preC ':' qs) = .ok r o := by
        rw [← hsep p q qs r o]
        simp only [preceded_eq_ok, context_eq_ok]
      simp only [alt_cons_eq_ok, alt_nil_eq_ok, h1, h2, true_and, h3, or_false, and_false]
      obtain ⟨e1, h1⟩ := h1
      obtain ⟨e2, h2⟩ := h2
      simp only [h1, h2, reduceCtorEq, false_or]
      rw [hp q qs r o hq, dropBlankLast_cons hd]
      simp only [List.tail_cons, List.getElem?_cons_zero, optIs, reduceCtorEq, if_false]
      constructor
      · rintro ⟨rfl, x, h⟩; exact ⟨qs, rfl, fun q hq => hqs q (by simp [hq]), rfl, ⟨x, h⟩, rfl⟩
      · rintro ⟨_, rfl, _, _, h, rfl⟩; exact ⟨rfl, h⟩

theorem optIs_getD {ε α : Type} {f : Str → Res ε α} {s : Option Str} {o : Option α} {d : α} (h : optIs f s o) :
    fieldIs f d s (o.getD d) := by
  cases s with
  | none => cases h; rfl
  | some p => obtain ⟨x, h, rfl⟩ := h; exact h

theorem optIs_of_fieldIs {ε α : Type} {f : Str → Res ε α} {s : Option Str} {d x : α} (h : fieldIs f d s x) :
    ∃ o, optIs f s o ∧ o.getD d = x := by
  cases s with
  | none => cases h; exact ⟨none, rfl, rfl⟩
  | some p => exact ⟨some x, ⟨x, h, rfl⟩, rfl⟩

/-- The exact meaning of a hit sample text. -/
theorem parse_iff {s : Str} {h : HitSample} : parse s = .ok h ↔ SampleReads (splitOnC ':' s) h := by
  cases hs : splitOnC ':' s with
  | nil => exact absurd hs (splitOnC_ne_nil _ _)
  | cons p qs =>
    obtain ⟨rfl, hp, hqs⟩ := splitOnC_iff.1 hs
    unfold parse
    rw [toRes_eq_ok]
    by_cases hd : dropBlankLast (p :: qs) = []
    · rcases dropBlankLast_nil.1 hd with h' | ⟨q', h', hb⟩
      · cases h'
      cases h'
      have : parser (p ++ preC ':' []) = .ok [] HitSample.default := by
        unfold parser
        refine alt_cons_ok (map_eq_ok.2 ⟨[], nothing_eq_ok.2 ⟨?_, rfl, rfl⟩, rfl⟩)
        rw [preC_nil, List.append_nil]; exact blanks_iff.1 hb
      rw [this]
      constructor
      · rintro ⟨r, h⟩
        cases h
        refine ⟨?_, ?_, ?_, ?_, ?_⟩ <;> rw [hd] <;> rfl
      · rintro ⟨h1, h2, h3, h4, h5⟩
        rw [hd] at h1 h2 h3 h4 h5
        obtain ⟨a, b, i, v, f⟩ := h
        simp [fieldIs] at h1 h2 h3 h4 h5
        subst h1 h2 h3 h4 h5
        exact ⟨[], rfl⟩
    · have hnb : ¬ AllC isSpace (p ++ preC ':' qs) := by
        intro h
        apply hd
        have hq' : AllC isSpace p := fun c hc => h c (by simp [hc])
        have hqs' : qs = [] := space_preC (by decide) (c := ':') fun c hc => h c (by simp [hc])
        subst hqs'
        exact dropBlankLast_nil.2 (.inr ⟨p, rfl, blanks_iff.2 hq'⟩)
      have h0 := dropBlankLast_cons hd
      unfold parser
      have hset := readsPiece_mapRes .invalidSampleSet SampleSet.parse
      have hidx := readsPiece_mapRes .invalidIndex SampleIndex.parse
      have hvol := readsPiece_mapRes .invalidVolume Volume.parse
      constructor
      · rintro ⟨r, h'⟩
        rw [alt_cons_eq_ok] at h'
        rcases h' with h' | ⟨_, h'⟩
        · obtain ⟨_, h', _⟩ := map_eq_ok.1 h'
          exact absurd (nothing_eq_ok.1 h').1 hnb
        rw [alt_cons_eq_ok, alt_nil_eq_ok] at h'
        rcases h' with h' | ⟨_, h'⟩
        · obtain ⟨r1, a, ha, h'⟩ := bind_eq_ok.1 h'
          rw [alt_cons_eq_ok] at ha
          rcases ha with ha | ⟨_, ha⟩
          · obtain ⟨_, ha, _⟩ := map_eq_ok.1 ha
            exact absurd (nothing_eq_ok.1 ha).1 hnb
          rw [alt_cons_eq_ok, alt_nil_eq_ok] at ha
          rcases ha with ha | ⟨_, ha⟩
          · unfold sampleSetP at ha
            rw [hset p qs r1 a hp] at ha
            obtain ⟨rfl, x, hx, rfl⟩ := ha
            obtain ⟨r2, b, hb, h'⟩ := bind_eq_ok.1 h'
            obtain ⟨qs2, rfl, n2, d2, o2, _⟩ := (optField_iff hset hqs).1 hb
            obtain ⟨r3, i, hi, h'⟩ := bind_eq_ok.1 h'
            obtain ⟨qs3, rfl, n3, d3, o3, _⟩ := (optField_iff hidx n2).1 hi
            obtain ⟨r4, v, hv, h'⟩ := bind_eq_ok.1 h'
            obtain ⟨qs4, rfl, n4, d4, o4, _⟩ := (optField_iff hvol n3).1 hv
            obtain ⟨r5, f, hf, h'⟩ := bind_eq_ok.1 h'
            obtain ⟨qs5, rfl, n5, d5, o5, _⟩ := (optField_iff readsPiece_field n4).1 hf
            obtain ⟨_, rfl⟩ := ret_eq_ok.1 h'
            rw [d4, d3, d2] at o5
            rw [d3, d2] at o4
            rw [d2] at o3
            simp only [List.getElem?_tail] at o5 o4 o3
            refine ⟨?_, ?_, ?_, ?_, ?_⟩
            · rw [h0]; exact hx
            · rw [h0]; exact optIs_getD o2
            · rw [h0]; exact optIs_getD o3
            · rw [h0]; exact optIs_getD o4
            · rw [h0]
              simp only [List.getElem?_cons_succ]
              cases hq : (dropBlankLast qs)[3]? with
              | none => simp only [hq, optIs] at o5; subst o5; rfl
              | some q => simp only [hq, optIs] at o5; obtain ⟨x, h, rfl⟩ := o5; cases h; rfl
          · exact ha.elim
        · exact h'.elim
      · rintro ⟨g1, g2, g3, g4, g5⟩
        rw [h0] at g1 g2 g3 g4 g5
        simp only [List.getElem?_cons_succ, List.getElem?_cons_zero] at g1 g2 g3 g4 g5
        obtain ⟨a, b, i, v, f⟩ := h
        simp only at g1 g2 g3 g4 g5
        obtain ⟨b', o2, rfl⟩ := optIs_of_fieldIs g2
        obtain ⟨i', o3, rfl⟩ := optIs_of_fieldIs g3
        obtain ⟨v', o4, rfl⟩ := optIs_of_fieldIs g4
        have o5 : optIs (fun s => (.ok s : Res Unit Str)) (dropBlankLast qs)[3]? (dropBlankLast qs)[3]? := by
          cases (dropBlankLast qs)[3]? with
          | none => rfl
          | some q => exact ⟨q, rfl, rfl⟩
        have step : ∀ {α ε : Type} {p : Parser HitSampleErr (Option α)} {f : Str → Res ε α}, ReadsPiece p f →
            ∀ {qs : List Str} {o}, (∀ q ∈ qs, NoC ':' q) → optIs f (dropBlankLast qs)[0]? o →
            ∃ qs', optField p (preC ':' qs) = .ok (preC ':' qs') o ∧ (∀ q ∈ qs', NoC ':' q) ∧
              dropBlankLast qs' = (dropBlankLast qs).tail := by
          intro α ε p f hp qs o hqs ho
          by_cases hd : dropBlankLast qs = []
          · refine ⟨[], (optField_iff hp hqs).2 ⟨[], rfl, by simp, by rw [hd]; rfl, ho, by rw [if_pos hd]⟩, by simp, by rw [hd]; rfl⟩
          · have ht : dropBlankLast qs.tail = (dropBlankLast qs).tail := by
              cases qs with
              | nil => rfl
              | cons q qs => rw [dropBlankLast_cons hd]; rfl
            have hn : ∀ q ∈ qs.tail, NoC ':' q := fun q hq => hqs q (List.mem_of_mem_tail hq)
            exact ⟨qs.tail, (optField_iff hp hqs).2 ⟨qs.tail, rfl, hn, ht, ho, by rw [if_neg hd]⟩, hn, ht⟩
        obtain ⟨qs2, r2, n2, d2⟩ := step hset hqs o2
        obtain ⟨qs3, r3, n3, d3⟩ := step hidx n2 (by rw [d2, List.getElem?_tail]; exact o3)
        obtain ⟨qs4, r4, n4, d4⟩ := step hvol n3 (by rw [d3, d2, List.getElem?_tail, List.getElem?_tail]; exact o4)
        obtain ⟨qs5, r5, n5, d5⟩ := step readsPiece_field n4 (o := (dropBlankLast qs)[3]?)
          (by rw [d4, d3, d2, List.getElem?_tail, List.getElem?_tail, List.getElem?_tail]; exact o5)
        refine ⟨preC ':' qs5, ?_⟩
        refine alt_cons_err (map_err (nothing_err hnb)) (alt_cons_ok (bind_eq_ok.2 ⟨preC ':' qs, some a, ?_, ?_⟩))
        · refine alt_cons_err (map_err (nothing_err hnb)) (alt_cons_ok ?_)
          unfold sampleSetP
          rw [hset p qs _ _ hp]
          exact ⟨rfl, a, g1, rfl⟩
        · refine bind_eq_ok.2 ⟨_, b', r2, bind_eq_ok.2 ⟨_, i', r3, bind_eq_ok.2 ⟨_, v', r4, bind_eq_ok.2 ⟨_, _, r5, ?_⟩⟩⟩⟩
          rw [ret_eq_ok]
          refine ⟨rfl, ?_⟩
          rw [g5]; rfl

theorem optField_good {α : Type} {p : Parser HitSampleErr (Option α)} (hp : Good (fun _ => False) p) :
    Good (fun _ => False) (optField p) := by
  have U := @Upward.false
  refine Good.alt (ps := [_, _]) ?_ ?_
  · intro q hq
    simp at hq
    rcases hq with rfl | rfl
    · exact (SafeF.preceded U (.tag _) .nothing).map _
    · exact SafeF.nothing.map _
  · exact ((SafeF.tag _).toSafe.context _).preceded U hp

theorem parse_no_panic (s : Str) : parse s ≠ .panic := by
  have U := @Upward.false
  have hf : ∀ {α ε : Type} (c : HitSampleErr) {f : Str → Res ε α}, (∀ s, f s ≠ .panic) →
      Good (fun _ => False) (context c ((mapRes field f).map some)) := by
    intro α ε c f h
    exact (((Good.takeWhile _).toSafe.mapRes h).map _).context _
  intro h
  refine Good.toRes (P := fun _ => False) (p := parser) ?_ h
  refine Good.alt (ps := [_]) ?_ ?_
  · intro q hq
    simp at hq
    subst hq
    exact SafeF.nothing.map _
  · refine Good.bind U (Good.alt (ps := [_]) ?_ ?_) fun a => ?_
    · intro q hq
      simp at hq
      subst hq
      exact SafeF.nothing.map _
    · exact hf _ SampleSet.parse_no_panic
    · exact (optField_good (hf _ SampleSet.parse_no_panic)).bind U fun b =>
        (optField_good (hf _ SampleIndex.parse_no_panic)).bind U fun i =>
        (optField_good (hf _ Volume.parse_no_panic)).bind U fun v =>
        (optField_good ((Good.takeWhile _).map _)).bind U fun f => .ret _

end HitSample
end HO
end Osu
