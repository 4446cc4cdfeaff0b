/-
Storyboard commands: the only command lines that panic are triggers whose type panics.
-/
import Verif.Proof.CmdsGrammar
import Verif.Proof.TriggerGrammar
import Verif.Proof.Ctx

namespace Osu
namespace Parser
variable {γ α β ε : Type} {P : Str → Prop}

theorem Safe.mapOpt {p : Parser γ α} (hp : Safe P p) (f : α → Option β) : Safe P (mapOpt p f) where
  suffix := by intro s r a h; obtain ⟨_, h, _⟩ := mapOpt_eq_ok.1 h; exact hp.suffix h
  panic := by
    intro s h
    unfold Parser.mapOpt at h
    cases hs : p s with
    | panic => exact hp.panic hs
    | ok r a =>
      simp only [hs] at h
      cases ha : f a <;> (simp only [ha] at h; cases h)
    | _ => rw [hs] at h; cases h

theorem Good.pair (hP : Upward P) {p : Parser γ α} {q : Parser γ β} (hp : Good P p) (hq : Good P q) : Good P (pair p q) :=
  hp.bind hP fun _ => hq.bind hP fun _ => .ret _

theorem SafeF.pair (hP : Upward P) {p : Parser γ α} {q : Parser γ β} (hp : SafeF P p) (hq : SafeF P q) : SafeF P (pair p q) :=
  hp.bind hP fun _ => hq.bind hP fun _ => (Good.ret _).toSafeF

/-- `many0` of a parser that consumes something. -/
theorem Good.many0 (hP : Upward P) {p : Parser γ α} (hp : SafeF P p) (hc : ∀ s r a, p s = .ok r a → r.length < s.length) :
    Good P (many0 p) := by
  have key : ∀ (n : Nat) (s : Str), s.length < n → (∀ r a, many0F p n s = .ok r a → r <:+ s) ∧
      (many0F p n s = .panic → P s) ∧ (∀ e, many0F p n s = .failure e → (firstCtx e).isSome) ∧
      ∀ e, many0F p n s ≠ .error e := by
    intro n
    induction n with
    | zero => intro s h; omega
    | succ n ih =>
      intro s hl
      simp only [many0F]
      cases hs : p s with
      | error e => exact ⟨fun r a h => by cases h; exact List.suffix_refl _, nofun, nofun, fun _ => nofun⟩
      | failure e => exact ⟨nofun, nofun, fun e h => by cases h; exact hp.failure hs, fun _ => nofun⟩
      | panic => exact ⟨nofun, fun _ => hp.panic hs, nofun, fun _ => nofun⟩
      | ok r a =>
        have hr := hc s r a hs
        simp only [if_pos hr]
        obtain ⟨h1, h2, h3, h4⟩ := ih r (by omega)
        cases hm : many0F p n r with
        | ok r' as => exact ⟨fun r a h => by cases h; exact (h1 _ _ hm).trans (hp.suffix hs), nofun, nofun, fun _ => nofun⟩
        | panic => exact ⟨nofun, fun _ => hP (hp.suffix hs) (h2 hm), nofun, fun _ => nofun⟩
        | failure e => exact ⟨nofun, nofun, fun e h => by cases h; exact h3 _ hm, fun _ => nofun⟩
        | error e => exact absurd hm (h4 e)
  exact {
    suffix := fun {s r a} h => (key _ s (Nat.lt_succ_self _)).1 r a h
    panic := fun {s} h => (key _ s (Nat.lt_succ_self _)).2.1 h
    failure := fun {s e} h => (key _ s (Nat.lt_succ_self _)).2.2.1 e h
    error := fun {s e} h => absurd h ((key _ s (Nat.lt_succ_self _)).2.2.2 e) }

theorem comma_consumes {q : Parser γ β} (hq : Safe P q) {s r : Str} {b : β} (h : preceded comma q s = .ok r b) :
    r.length < s.length := by
  obtain ⟨r1, a, h1, h2⟩ := preceded_eq_ok.1 h
  obtain ⟨rfl, _⟩ := comma_eq_ok.1 h1
  have := (hq.suffix h2).length_le
  simp; omega

/-- A soft parser is safe if it gives a suffix. -/
theorem Soft.safeF {p : Parser γ α} (h : Soft p) (hs : ∀ s r a, p s = .ok r a → r <:+ s) : SafeF P p where
  suffix := fun {s r a} h' => hs s r a h'
  panic := by intro s h'; rcases h s with ⟨r, a, e⟩ | ⟨e, e'⟩ <;> simp_all
  failure := by intro s e h'; rcases h s with ⟨r, a, e⟩ | ⟨e, e'⟩ <;> simp_all

/-- On the text `s` the parser does not panic and its errors carry a context. -/
def GoodAt (p : Parser γ α) (s : Str) : Prop :=
  p s ≠ .panic ∧ (∀ e, p s = .failure e → (firstCtx e).isSome) ∧ ∀ e, p s = .error e → (firstCtx e).isSome

theorem Good.at {p : Parser γ α} (h : Good (fun _ => False) p) (s : Str) : GoodAt p s :=
  ⟨fun h' => h.panic h', fun _ h' => h.failure h', fun _ h' => h.error h'⟩

theorem GoodAt.bind {p : Parser γ α} {f : α → Parser γ β} {s : Str} (h : GoodAt p s)
    (hf : ∀ r a, p s = .ok r a → GoodAt (f a) r) : GoodAt (p.bind f) s := by
  unfold GoodAt
  rw [bind_app]
  cases hs : p s with
  | ok r a => exact hf r a hs
  | panic => exact absurd hs h.1
  | error e => exact ⟨nofun, nofun, fun e h' => by cases h'; exact h.2.2 _ hs⟩
  | failure e => exact ⟨nofun, fun e h' => by cases h'; exact h.2.1 _ hs, nofun⟩

theorem GoodAt.cut {p : Parser γ α} {s : Str} (h : GoodAt p s) : GoodAt (cut p) s := by
  unfold GoodAt Parser.cut
  cases hs : p s with
  | ok r a => exact ⟨nofun, nofun, nofun⟩
  | panic => exact absurd hs h.1
  | error e => exact ⟨nofun, fun e h' => by cases h'; exact h.2.2 _ hs, nofun⟩
  | failure e => exact ⟨nofun, fun e h' => by cases h'; exact h.2.1 _ hs, nofun⟩

theorem GoodAt.map {p : Parser γ α} {s : Str} (h : GoodAt p s) (f : α → β) : GoodAt (p.map f) s := by
  unfold GoodAt Parser.map
  cases hs : p s with
  | ok r a => exact ⟨nofun, nofun, nofun⟩
  | panic => exact absurd hs h.1
  | error e => exact ⟨nofun, nofun, fun e h' => by cases h'; exact h.2.2 _ hs⟩
  | failure e => exact ⟨nofun, fun e h' => by cases h'; exact h.2.1 _ hs, nofun⟩

theorem GoodAt.toRes {p : Parser γ α} {s : Str} (h : GoodAt p s) : (p s).toRes ≠ .panic := by
  cases hs : p s with
  | ok r a => exact nofun
  | panic => exact absurd hs h.1
  | error e =>
    have := h.2.2 e hs
    simp only [PRes.toRes]
    cases hf : firstCtx e with
    | none => rw [hf] at this; cases this
    | some c => exact nofun
  | failure e =>
    have := h.2.1 e hs
    simp only [PRes.toRes]
    cases hf : firstCtx e with
    | none => rw [hf] at this; cases this
    | some c => exact nofun

/-- An alternative that backtracks without a context is harmless if it is not the last one. -/
theorem GoodAt.alt_cons {p : Parser γ α} {ps : List (Parser γ α)} {s : Str} (h1 : p s ≠ .panic)
    (h2 : ∀ e, p s = .failure e → (firstCtx e).isSome) (hps : ps ≠ []) (h : GoodAt (alt ps) s) : GoodAt (alt (p :: ps)) s := by
  unfold GoodAt Parser.alt
  rw [altAux]
  cases hs : p s with
  | ok r a => exact ⟨nofun, nofun, nofun⟩
  | panic => exact absurd hs h1
  | failure e => exact ⟨nofun, fun e h' => by cases h'; exact h2 _ hs, nofun⟩
  | error e =>
    simp only
    have : altAux e s ps = altAux [] s ps := by
      cases ps with
      | nil => exact absurd rfl hps
      | cons q qs => rfl
    rw [this]; exact h

theorem GoodAt.alt_one {p : Parser γ α} {s : Str} (h : GoodAt p s) : GoodAt (alt [p]) s := by
  unfold GoodAt Parser.alt
  rw [altAux]
  cases hs : p s with
  | ok r a => exact ⟨nofun, nofun, nofun⟩
  | panic => exact absurd hs h.1
  | failure e => exact ⟨nofun, fun e h' => by cases h'; exact h.2.1 _ hs, nofun⟩
  | error e => exact ⟨nofun, nofun, fun e h' => by cases h'; exact firstCtx_append _ (h.2.2 _ hs)⟩

end Parser

namespace SB.Command
open Parser
variable {D : Type} [DecLib D]

abbrev NP : Str → Prop := fun _ => False

omit [DecLib D]

theorem startTimeP_good : Good NP startTimeP :=
  .preceded @Upward.false (SafeF.comma.toSafe.context _) ((((SafeF.commaFieldType parseI32_no_panic).toSafe.map _)).context _)

theorem endTimeP_good : Good NP endTimeP := by
  refine .preceded @Upward.false (SafeF.comma.toSafe.cut.context _) (Good.alt (ps := [_]) ?_ ?_)
  · intro p hp
    rw [List.mem_singleton] at hp; subst hp
    exact (Good.commaField.toSafeF.verify _).map _
  · exact (((SafeF.commaFieldType parseI32_no_panic).toSafe.context _).map _).cut

theorem easingP_good : Good NP easingP :=
  (Good.preceded @Upward.false (SafeF.comma.toSafe.context _)
    (((SafeF.commaFieldType parseI32_no_panic).toSafe.mapOpt _).context _)).cut

theorem timesP_good : Good NP timesP := by
  refine easingP_good.pair @Upward.false (Good.alt (ps := [_]) ?_ (startTimeP_good.pair @Upward.false endTimeP_good))
  intro p hp
  rw [List.mem_singleton] at hp; subst hp
  exact ((SafeF.tag _).pair @Upward.false SafeF.comma.peek).map _

theorem ofStr_no_panic [DecLib D] (s : Str) : (Decimal.parse s : Res Unit (Decimal D)) ≠ .panic := nofun

variable [DecLib D]

/-- The continuing pairs are read without failure: after a field there is a comma or the end. -/
theorem twoContinuing_ok (s : Str) :
    ∃ r l, (twoContinuingP : Parser CmdErr (List (Decimal D × Option (Decimal D)))) s = .ok r l ∧ r <:+ s := by
  by_cases h : ∃ t, s = ',' :: t
  · obtain ⟨t, rfl⟩ := h
    obtain ⟨p, qs, hs⟩ : ∃ p qs, splitOnC ',' t = p :: qs := by
      cases h : splitOnC ',' t with
      | nil => exact absurd h (splitOnC_ne_nil _ _)
      | cons p qs => exact ⟨p, qs, rfl⟩
    obtain ⟨rfl, hp, hqs⟩ := splitOnC_iff.1 hs
    rw [← preC_cons]
    exact ⟨[], _, twoContinuing_eq (p :: qs) (by
      intro q hq
      rcases List.mem_cons.1 hq with rfl | hq
      · exact hp
      · exact hqs q hq), List.nil_suffix⟩
  · obtain ⟨e, he⟩ := comma_err (γ := CmdErr) fun r hr => h ⟨r, hr⟩
    exact ⟨s, [], many0_nil (e := e) (by rw [preceded, bind_app, he]), List.suffix_refl _⟩

theorem twoContinuing_good : Good NP (twoContinuingP : Parser CmdErr (List (Decimal D × Option (Decimal D)))) where
  suffix := by
    intro s r a h
    obtain ⟨r', l, h', hs⟩ := twoContinuing_ok (D := D) s
    rw [h] at h'; cases h'; exact hs
  panic := by intro s h; obtain ⟨r', l, h', _⟩ := twoContinuing_ok (D := D) s; rw [h] at h'; cases h'
  failure := by intro s e h; obtain ⟨r', l, h', _⟩ := twoContinuing_ok (D := D) s; rw [h] at h'; cases h'
  error := by intro s e h; obtain ⟨r', l, h', _⟩ := twoContinuing_ok (D := D) s; rw [h] at h'; cases h'

theorem twoBodyP_good (e1 e2 e3 e4 e5 : CmdErr) :
    Good NP (twoBodyP e1 e2 e3 e4 e5 : Parser CmdErr (_ × ContinuingFields (Decimal D))) := by
  refine (timesP_good.bind @Upward.false fun t => (Good.commaThen @Upward.false ofStr_no_panic).bind @Upward.false fun x =>
    (Good.commaThen @Upward.false ofStr_no_panic).bind @Upward.false fun y =>
    (Good.terminated @Upward.false twoContinuing_good (SafeF.eof.toSafe.context _)).bind @Upward.false fun c => .ret _).cut

omit [DecLib D] in
theorem many0_field {ε α : Type} {f : Str → Res ε α} (hf : ∀ a, f a ≠ .panic) :
    Good NP (many0 (preceded comma (commaFieldType f)) : Parser CmdErr (List α)) :=
  Good.many0 @Upward.false (SafeF.comma.preceded @Upward.false (SafeF.commaFieldType hf)) fun _ _ _ h =>
    comma_consumes (SafeF.commaFieldType (P := NP) hf).toSafe h

theorem oneFieldP_safe (h : Str) (e1 e2 e3 : CmdErr) :
    SafeF NP (oneFieldP h e1 e2 e3 : Parser CmdErr (_ × Decimal D × List (Decimal D))) := by
  refine (SafeF.tag h).preceded @Upward.false (Good.cut ?_).toSafeF
  exact timesP_good.bind @Upward.false fun t => (Good.commaThen @Upward.false ofStr_no_panic).bind @Upward.false fun x =>
    (Good.terminated @Upward.false (many0_field ofStr_no_panic) (SafeF.eof.toSafe.context _)).bind @Upward.false fun c => .ret _

theorem moveP_safe : SafeF NP (moveP : Parser CmdErr (Command D)) :=
  (SafeF.preceded @Upward.false ((SafeF.tag _).pair @Upward.false SafeF.comma.peek) (twoBodyP_good ..).toSafeF).map _

theorem vectorScaleP_safe : SafeF NP (vectorScaleP : Parser CmdErr (Command D)) :=
  ((SafeF.tag _).preceded @Upward.false (twoBodyP_good ..).toSafeF).map _

omit [DecLib D]

theorem parameter_no_panic (s : Str) : Parameter.parse s ≠ .panic := by
  unfold Parameter.parse
  repeat' split
  all_goals exact nofun

theorem parameterP_safe : SafeF NP (parameterP : Parser CmdErr (Command D)) := by
  refine ((SafeF.tag _).preceded @Upward.false (Good.cut ?_).toSafeF).map _
  exact timesP_good.bind @Upward.false fun t => (Good.commaThen @Upward.false parameter_no_panic).bind @Upward.false fun x =>
    (Good.terminated @Upward.false (many0_field parameter_no_panic) (SafeF.eof.toSafe.context _)).bind @Upward.false fun c => .ret _

theorem contColourP_safe : SafeF NP contColourP := by
  refine SafeF.alt ?_
  intro p hp
  simp only [List.mem_cons, List.not_mem_nil, or_false] at hp
  rcases hp with rfl | rfl
  · exact SafeF.eof.map _
  · exact (SafeF.comma.preceded @Upward.false (SafeF.commaFieldType parseU8_no_panic)).map _

theorem contColoursP_good : Good NP contColoursP := by
  have h : SafeF NP ((commaFieldType parseU8 : Parser CmdErr UInt8).bind fun r =>
    contColourP.bind fun g => contColourP.bind fun b => ret (r, g, b)) :=
    (SafeF.commaFieldType parseU8_no_panic).bind @Upward.false fun r => contColourP_safe.bind @Upward.false fun g =>
      contColourP_safe.bind @Upward.false fun b => (Good.ret _).toSafeF
  exact Good.many0 @Upward.false (SafeF.comma.preceded @Upward.false h) fun _ _ _ h' => comma_consumes h.toSafe h'

theorem colourP_safe : SafeF NP (colourP : Parser CmdErr (Command D)) := by
  refine ((SafeF.tag _).preceded @Upward.false (Good.cut ?_).toSafeF).map _
  exact timesP_good.bind @Upward.false fun t => (Good.commaThen @Upward.false parseU8_no_panic).bind @Upward.false fun x =>
    (Good.commaThen @Upward.false parseU8_no_panic).bind @Upward.false fun y =>
    (Good.commaThen @Upward.false parseU8_no_panic).bind @Upward.false fun z =>
    (Good.terminated @Upward.false contColoursP_good (SafeF.eof.toSafe.context _)).bind @Upward.false fun c => .ret _

theorem loopP_safe : SafeF NP (loopP : Parser CmdErr (Command D)) := by
  refine ((SafeF.tag _).preceded @Upward.false (Good.cut (Good.pair @Upward.false (Good.alt (ps := [_]) ?_ startTimeP_good) ?_)).toSafeF).map _
  · intro p hp
    rw [List.mem_singleton] at hp; subst hp
    exact (SafeF.comma.pair @Upward.false SafeF.comma.peek).map _
  · exact Good.preceded @Upward.false (SafeF.comma.toSafe.context _) ((Good.rest.toSafe.mapRes parseU32_no_panic).context _)

/-- The end of a trigger, at a comma or the end of the line. -/
theorem triggerTail_at {s : Str} (hs : AtComma s) : GoodAt triggerTailP s := by
  have c1 : SafeF NP ((pair (preceded comma (commaFieldType parseI32))
      (preceded comma (context .invalidGroupNumber (cut (restType parseI32))))).map fun (e, g) => (some e, some g) : Parser CmdErr _) :=
    (SafeF.pair @Upward.false (SafeF.comma.preceded @Upward.false (SafeF.commaFieldType parseI32_no_panic))
      (SafeF.comma.preceded @Upward.false ((SafeF.restType parseI32_no_panic).toSafe.cut.context _).toSafeF)).map _
  have c2 : SafeF NP ((preceded (pair comma comma) (context .invalidGroupNumber (cut (restType parseI32)))).map
      fun g => (none, some g) : Parser CmdErr (Option Int32 × Option Int32)) :=
    ((SafeF.comma.pair @Upward.false SafeF.comma).preceded @Upward.false
      ((SafeF.restType parseI32_no_panic).toSafe.cut.context _).toSafeF).map _
  have c3 : SafeF NP (alt [(verify rest fun s => (trim s).isEmpty).map fun _ => (none, none),
      (verify rest fun s => s == c!",").map fun _ => (none, none)] : Parser CmdErr (Option Int32 × Option Int32)) := by
    refine SafeF.alt ?_
    intro p hp
    simp only [List.mem_cons, List.not_mem_nil, or_false] at hp
    rcases hp with rfl | rfl
    · exact (Good.rest.toSafeF.verify _).map _
    · exact (Good.rest.toSafeF.verify _).map _
  refine GoodAt.alt_cons (fun h => c1.panic h) (fun e h => c1.failure h) (by simp) ?_
  refine GoodAt.alt_cons (fun h => c2.panic h) (fun e h => c2.failure h) (by simp) ?_
  rcases hs with rfl | ⟨r, rfl⟩
  · exact ⟨fun h => (by cases h), fun e h => (by cases h), fun e h => (by cases h)⟩
  · refine GoodAt.alt_cons (fun h => c3.panic h) (fun e h => c3.failure h) (by simp) ?_
    refine GoodAt.alt_one (GoodAt.map ?_ _)
    refine GoodAt.bind ⟨fun h => (by cases h), fun e h => (by cases h), fun e h => (by cases h)⟩ fun r' a _ => (((SafeF.restType parseI32_no_panic).toSafe.cut.context _).at _)

/-- A trigger, on the text after its header. -/
theorem trigger_at [UniLib] {p : Str} {qs : List Str} (hp : NoC ',' p) (hqs : ∀ q ∈ qs, NoC ',' q)
    (ht : TriggerType.parse p ≠ .panic) :
    GoodAt (cut ((context .invalidTriggerType (mapRes commaField TriggerType.parse)).bind fun t =>
      (alt [(pair comma (peek comma)).map fun _ => none,
        (verify rest fun s => (trim s).isEmpty).map fun _ => none, startTimeP]).bind fun st =>
      triggerTailP.bind fun (et, g) => ret (t, st, et, g)) : Parser CmdErr _) (p ++ preC ',' qs) := by
  have hf : (mapRes commaField TriggerType.parse : Parser CmdErr _) (p ++ preC ',' qs) =
      match TriggerType.parse p with
      | .ok t => .ok (preC ',' qs) t
      | .err _ => .error [(p ++ preC ',' qs, .nom .mapRes)]
      | .panic => .panic := by
    unfold mapRes
    rw [commaField_pieces hp]
    cases h : TriggerType.parse p <;> simp only [h]
  refine GoodAt.cut (GoodAt.bind ?_ fun r t hr => ?_)
  · unfold GoodAt context
    rw [hf]
    cases hp : TriggerType.parse p with
    | ok t => exact ⟨nofun, nofun, nofun⟩
    | panic => exact absurd hp ht
    | err e => exact ⟨nofun, nofun, fun e h => by cases h; rfl⟩
  · rw [context_eq_ok, hf] at hr
    have hr' : r = preC ',' qs := by
      cases hp : TriggerType.parse p with
      | ok t => rw [hp] at hr; cases hr; rfl
      | panic => rw [hp] at hr; cases hr
      | err e => rw [hp] at hr; cases hr
    subst hr'
    refine GoodAt.bind ?_ fun r st hr => ?_
    · refine (Good.alt (ps := [_, _]) ?_ startTimeP_good).at _
      intro p hp
      simp only [List.mem_cons, List.not_mem_nil, or_false] at hp
      rcases hp with rfl | rfl
      · exact (SafeF.comma.pair @Upward.false SafeF.comma.peek).map _
      · exact (Good.rest.toSafeF.verify _).map _
    · refine (triggerTail_at ?_).bind fun r x _ => (Good.ret _).at _
      obtain ⟨q, hq, h⟩ := alt_mem hr
      simp only [List.mem_cons, List.not_mem_nil, or_false] at hq
      rcases hq with rfl | rfl | rfl
      · obtain ⟨x, h, _⟩ := map_eq_ok.1 h
        obtain ⟨r1, h1, h2⟩ := pair_eq_ok.1 h
        obtain ⟨rfl, r2, h3⟩ := peek_eq_ok.1 h2
        obtain ⟨h3, _⟩ := comma_eq_ok.1 h3
        exact .inr ⟨_, h3⟩
      · obtain ⟨x, h, _⟩ := map_eq_ok.1 h
        obtain ⟨h, _⟩ := verify_eq_ok.1 h
        exact .inl (rest_eq_ok.1 h).1
      · obtain ⟨r1, _, h1, h2⟩ := preceded_eq_ok.1 h
        rw [context_eq_ok] at h2
        obtain ⟨x, h2, _⟩ := map_eq_ok.1 h2
        obtain ⟨t, _, _, h3, _⟩ := commaFieldType_eq_ok.1 h2
        exact h3

variable [UniLib]

theorem triggerP_at {p : Str} {qs : List Str} (hp : NoC ',' p) (hqs : ∀ q ∈ qs, NoC ',' q)
    (hn : ∀ x xs, p = c!"T" → qs = x :: xs → TriggerType.parse x ≠ .panic) :
    (triggerP : Parser CmdErr (Command D)) (p ++ preC ',' qs) ≠ .panic ∧
    ∀ e, (triggerP : Parser CmdErr (Command D)) (p ++ preC ',' qs) = .failure e → (firstCtx e).isSome := by
  by_cases hT : List.isPrefixOf c!"T" (p ++ preC ',' qs) = false
  · obtain ⟨e, he⟩ := trigger_err (D := D) hT
    rw [he]; exact ⟨nofun, nofun⟩
  · have hT' : ∃ t, p ++ preC ',' qs = 'T' :: t := by
      cases hl : p ++ preC ',' qs with
      | nil => rw [hl] at hT; exact absurd rfl hT
      | cons c t =>
        rw [hl] at hT
        have : c = 'T' := by
          simp [List.isPrefixOf] at hT; exact hT.symm
        rw [this]; exact ⟨t, rfl⟩
    obtain ⟨t, ht⟩ := hT'
    rw [ht]
    by_cases hc : ∃ u, t = ',' :: u
    · obtain ⟨u, rfl⟩ := hc
      obtain ⟨h1, h2⟩ := noC_unique (q := c!"T") (Y := ',' :: u) hp (NoC_hdr (by rfl)) (atComma_preC qs) .cons ht
      obtain ⟨x, xs, rfl, rfl⟩ := preC_eq_cons.1 h2
      have := (trigger_at (qs := xs) (hqs x (by simp)) (fun q hq => hqs q (by simp [hq])) (hn x xs h1 rfl)).map
        (fun x : TriggerType × Option Int32 × Option Int32 × Option Int32 =>
          (mk x.2.1 (.trigger x.1 x.2.2.1 x.2.2.2 []) : Command D))
      exact ⟨this.1, this.2.1⟩
    · obtain ⟨e, he⟩ := comma_err (γ := CmdErr) fun r hr => hc ⟨r, hr⟩
      have : (triggerP : Parser CmdErr (Command D)) ('T' :: t) = .failure (e ++ [(t, .ctx .missingTriggerType)]) := by
        have h1 : (context .missingTriggerType (cut comma) : Parser CmdErr Str) t =
            .failure (e ++ [(t, .ctx .missingTriggerType)]) := by
          unfold context cut; rw [he]
        unfold triggerP Parser.map
        have h2 : ∀ {α : Type} (k : Parser CmdErr α), preceded (pair (tag c!"T") (context .missingTriggerType (cut comma))) k ('T' :: t) =
            .failure (e ++ [(t, .ctx .missingTriggerType)]) := by
          intro α k
          rw [preceded, bind_app, pair, bind_app, show (tag c!"T" : Parser CmdErr Str) ('T' :: t) = .ok t c!"T" from by
            simp [tag, List.isPrefixOf]]
          simp only
          rw [bind_app, h1]
        rw [h2]
      rw [this]
      exact ⟨nofun, fun e h => by cases h; exact firstCtx_append_ctx _ _ _⟩

variable [DecLib D]

/-- A command line panics exactly if it is a trigger whose type panics. -/
theorem command_panics {s : Str} :
    (parse s : Res CmdErr (Command D)) = .panic ↔ CmdPanics (splitOnC ',' (s.dropWhile isIndent)) := by
  obtain ⟨p, qs, hs⟩ : ∃ p qs, splitOnC ',' (s.dropWhile isIndent) = p :: qs := by
    cases h : splitOnC ',' (s.dropWhile isIndent) with
    | nil => exact absurd h (splitOnC_ne_nil _ _)
    | cons p qs => exact ⟨p, qs, rfl⟩
  obtain ⟨hd, hp, hqs⟩ := splitOnC_iff.1 hs
  rw [hs]
  have hparse : (parse s : Res CmdErr (Command D)) = (alt [moveP, rotateP, scaleP, vectorScaleP, fadeP, parameterP, moveYP, colourP,
      moveXP, triggerP, loopP, context CmdErr.unknownCommandType Parser.fail] (p ++ preC ',' qs)).toRes := by
    unfold parse commandP
    rw [preceded, bind_app, Parser.takeWhile]
    simp only [hd]
  rw [hparse]
  constructor
  · intro h
    apply Classical.byContradiction
    intro hc
    refine absurd h (GoodAt.toRes ?_)
    have one : ∀ {h : Str} {e1 e2 e3 : CmdErr} {f : (Easing × Option Int32 × Option Int32) × Decimal D × List (Decimal D) → Command D},
        SafeF NP ((oneFieldP h e1 e2 e3).map f) := (oneFieldP_safe ..).map _
    have tr := triggerP_at (D := D) hp hqs (by
      rintro x xs rfl rfl ht
      exact hc ⟨x, xs, rfl, TriggerType.trigger_panics.1 ht⟩)
    refine GoodAt.alt_cons (fun h => moveP_safe.panic h) (fun e h => moveP_safe.failure h) (by simp) ?_
    refine GoodAt.alt_cons (fun h => one.panic h) (fun e h => one.failure h) (by simp) ?_
    refine GoodAt.alt_cons (fun h => one.panic h) (fun e h => one.failure h) (by simp) ?_
    refine GoodAt.alt_cons (fun h => vectorScaleP_safe.panic h) (fun e h => vectorScaleP_safe.failure h) (by simp) ?_
    refine GoodAt.alt_cons (fun h => one.panic h) (fun e h => one.failure h) (by simp) ?_
    refine GoodAt.alt_cons (fun h => parameterP_safe.panic h) (fun e h => parameterP_safe.failure h) (by simp) ?_
    refine GoodAt.alt_cons (fun h => one.panic h) (fun e h => one.failure h) (by simp) ?_
    refine GoodAt.alt_cons (fun h => colourP_safe.panic h) (fun e h => colourP_safe.failure h) (by simp) ?_
    refine GoodAt.alt_cons (fun h => one.panic h) (fun e h => one.failure h) (by simp) ?_
    refine GoodAt.alt_cons tr.1 tr.2 (by simp) ?_
    refine GoodAt.alt_cons (fun h => loopP_safe.panic h) (fun e h => loopP_safe.failure h) (by simp) ?_
    exact GoodAt.alt_one ((SafeF.fail.toSafe.context _).at _)
  · rintro ⟨x, xs, e, ht⟩
    injection e with e1 e2
    subst e1 e2
    have ht' := TriggerType.trigger_panics.2 ht
    have hx := hqs x (by simp)
    rw [preC_cons]
    have htr : (triggerP : Parser CmdErr (Command D)) ('T' :: ',' :: (x ++ preC ',' xs)) = .panic := by
      unfold triggerP Parser.map
      rw [preceded, bind_app, pair, bind_app, show (tag c!"T" : Parser CmdErr Str) ('T' :: ',' :: (x ++ preC ',' xs)) = .ok (',' :: (x ++ preC ',' xs)) c!"T" from by
            simp [tag, List.isPrefixOf]]
      simp only
      rw [bind_app, show (context .missingTriggerType (cut comma) : Parser CmdErr Str) (',' :: (x ++ preC ',' xs)) = .ok (x ++ preC ',' xs) [','] from by
            simp [context, cut, comma, tag, List.isPrefixOf]]
      simp only [ret, cut]
      rw [bind_app]
      simp only [context, mapRes]
      rw [commaField_pieces hx]
      simp only [ht']
    have er : ∀ {h : Str} {e1 e2 e3 : CmdErr} {f : (Easing × Option Int32 × Option Int32) × Decimal D × List (Decimal D) → Command D} {s : Str},
        h.isPrefixOf s = false → ∃ e, (oneFieldP h e1 e2 e3).map f s = .error e := fun h => hdr_err h
    obtain ⟨e1, e1'⟩ := move_err (D := D) (s := 'T' :: ',' :: (x ++ preC ',' xs)) (by intro r h; cases h)
    obtain ⟨e2, e2'⟩ : ∃ e, (rotateP : Parser CmdErr (Command D)) ('T' :: ',' :: (x ++ preC ',' xs)) = .error e := er rfl
    obtain ⟨e3, e3'⟩ : ∃ e, (scaleP : Parser CmdErr (Command D)) ('T' :: ',' :: (x ++ preC ',' xs)) = .error e := er rfl
    obtain ⟨e4, e4'⟩ : ∃ e, (vectorScaleP : Parser CmdErr (Command D)) ('T' :: ',' :: (x ++ preC ',' xs)) = .error e := hdr_err rfl
    obtain ⟨e5, e5'⟩ : ∃ e, (fadeP : Parser CmdErr (Command D)) ('T' :: ',' :: (x ++ preC ',' xs)) = .error e := er rfl
    obtain ⟨e6, e6'⟩ : ∃ e, (parameterP : Parser CmdErr (Command D)) ('T' :: ',' :: (x ++ preC ',' xs)) = .error e := hdr_err rfl
    obtain ⟨e7, e7'⟩ : ∃ e, (moveYP : Parser CmdErr (Command D)) ('T' :: ',' :: (x ++ preC ',' xs)) = .error e := er rfl
    obtain ⟨e8, e8'⟩ : ∃ e, (colourP : Parser CmdErr (Command D)) ('T' :: ',' :: (x ++ preC ',' xs)) = .error e := hdr_err rfl
    obtain ⟨e9, e9'⟩ : ∃ e, (moveXP : Parser CmdErr (Command D)) ('T' :: ',' :: (x ++ preC ',' xs)) = .error e := er rfl
    simp only [List.cons_append, List.nil_append, alt, altAux, e1', e2', e3', e4', e5', e6', e7', e8', e9', htr, PRes.toRes]

end SB.Command
end Osu
