/-
The Events section: exactly which lines panic.
-/
import Verif.Proof.EventsSection
import Verif.Proof.CmdsPanic

namespace Osu
open SB Ev Parser
variable {D : Type} [DecLib D]

namespace Ev
open SB.Command (NP ofStr_no_panic)

omit [DecLib D]

theorem overflow_iff {v : Nat} {s : Str} : TimeLost v s ↔ ∃ n, parseI32 s = .ok n ∧ shiftUp v n = none := by
  unfold TimeLost
  constructor
  · rintro ⟨n, h, hn⟩
    refine ⟨n, h, ?_⟩
    cases hs : shiftUp v n with
    | none => rfl
    | some m => exact absurd (shiftUp_iff.1 hs) (hn m)
  · rintro ⟨n, h, hn⟩
    refine ⟨n, h, fun m hm => ?_⟩
    rw [shiftUp_iff.2 hm] at hn; cases hn

/-- The start time, up to the next comma. -/
theorem startTime_eq {v : Nat} {q : Str} {qs : List Str} (hq : NoC ',' q) :
    startTimeOffset v (q ++ preC ',' qs) = match parseI32 q with
      | .ok n => match shiftUp v n with
        | some m => .ok (preC ',' qs) m
        | none => .panic
      | .err _ => .error [(q ++ preC ',' qs, .nom .mapRes), (q ++ preC ',' qs, .ctx .invalidStartTime)]
      | .panic => .panic := by
  unfold startTimeOffset context mapP commaFieldType mapRes
  rw [commaField_pieces hq]
  cases h : parseI32 q with
  | ok n =>
    simp only [h]
    cases h' : shiftUp v n <;> simp only [h']
  | err e => simp only [h]; rfl
  | panic => simp only [h]

theorem startTime_at {v : Nat} {e : NEErr} {qs : List Str} (hqs : ∀ q ∈ qs, NoC ',' q)
    (h : ¬∃ t ps, qs = t :: ps ∧ TimeLost v t) :
    GoodAt (preceded (context e comma) (startTimeOffset v)) (preC ',' qs) := by
  refine GoodAt.bind ((SafeF.comma.toSafe.context _).at _) fun r a hr => ?_
  rw [context_eq_ok] at hr
  obtain ⟨hr, _⟩ := comma_eq_ok.1 hr
  cases qs with
  | nil => rw [preC_nil] at hr; cases hr
  | cons q qs =>
    rw [preC_cons] at hr
    cases hr
    unfold GoodAt
    rw [startTime_eq (hqs q (by simp))]
    cases hp : parseI32 q with
    | panic => exact absurd hp (parseI32_no_panic q)
    | err e => exact ⟨nofun, nofun, fun e h => by cases h; rfl⟩
    | ok n =>
      simp only
      cases hn : shiftUp v n with
      | none => exact absurd ⟨q, qs, rfl, overflow_iff.2 ⟨n, hp, hn⟩⟩ h
      | some m => exact ⟨nofun, nofun, nofun⟩

theorem startTime_panic {v : Nat} {e : NEErr} {q : Str} {qs : List Str} (hq : NoC ',' q) (h : TimeLost v q) :
    preceded (context e comma) (startTimeOffset v) (preC ',' (q :: qs)) = .panic := by
  obtain ⟨n, h1, h2⟩ := overflow_iff.1 h
  rw [preC_cons]
  show startTimeOffset v (q ++ preC ',' qs) = .panic
  rw [startTime_eq hq, h1]
  simp only [h2]

theorem endTime_eq {v : Nat} {s : Str} :
    endTimeOffset v s = match parseI32 s with
      | .ok n => match shiftUp v n with
        | some m => .ok [] m
        | none => .panic
      | .err _ => .error [(s, .nom .mapRes), (s, .ctx .invalidEndTime)]
      | .panic => .panic := by
  unfold endTimeOffset context mapP restType mapRes rest
  cases h : parseI32 s with
  | ok n =>
    simp only [h]
    cases h' : shiftUp v n <;> simp only [h']
  | err e => simp only [h]; rfl
  | panic => simp only [h]

theorem endTime_at {v : Nat} {e : NEErr} {qs : List Str} (h : ¬∃ t, qs = [t] ∧ TimeLost v t) :
    GoodAt (preceded (context e comma) (endTimeOffset v)) (preC ',' qs) := by
  refine GoodAt.bind ((SafeF.comma.toSafe.context _).at _) fun r a hr => ?_
  rw [context_eq_ok] at hr
  obtain ⟨hr, _⟩ := comma_eq_ok.1 hr
  cases qs with
  | nil => rw [preC_nil] at hr; cases hr
  | cons q qs =>
    rw [preC_cons] at hr
    cases hr
    unfold GoodAt
    rw [endTime_eq]
    cases hp : parseI32 (q ++ preC ',' qs) with
    | panic => exact absurd hp (parseI32_no_panic _)
    | err e => exact ⟨nofun, nofun, fun e h => by cases h; rfl⟩
    | ok n =>
      simp only
      cases hn : shiftUp v n with
      | some m => exact ⟨nofun, nofun, nofun⟩
      | none =>
        cases qs with
        | nil =>
          rw [preC_nil, List.append_nil] at hp
          exact absurd ⟨q, rfl, overflow_iff.2 ⟨n, hp, hn⟩⟩ h
        | cons q' qs =>
          have := (parseI32_chars hp).2 ',' (by rw [preC_cons]; simp)
          exact absurd this (by decide)

theorem headerP_good (a b : Str) : Good NP (headerP a b) := by
  refine Good.alt (ps := [_]) ?_ (((SafeF.tag b).toSafe.map _).context _)
  intro p hp
  rw [List.mem_singleton] at hp; subst hp
  exact (SafeF.tag a).map _

theorem parseRepr_no_panic {α : Type} {f : UInt64 → Option α} (s : Str) : parseRepr f s ≠ .panic := by
  unfold parseRepr
  cases h : parseUsize s with
  | panic => exact absurd h (parseUsize_no_panic s)
  | err e => simp only; exact nofun
  | ok n => simp only; cases f n <;> exact nofun

theorem volume_no_panic (s : Str) : Volume.parse s ≠ .panic := by
  unfold Volume.parse
  cases h : parseU8 s with
  | panic => exact absurd h (parseU8_no_panic s)
  | err e => simp only; exact nofun
  | ok n => simp only; cases Volume.new n <;> exact nofun

theorem hdr_good (h : Str) (e1 e2 : NEErr) {α : Type} {p : Parser NEErr α} (hp : Good NP p) :
    Good NP (preceded (pair (context e1 (tag h)) (context e2 comma)) p) :=
  (((SafeF.tag h).toSafe.context _).pair @Upward.false (SafeF.comma.toSafe.context _)).preceded @Upward.false hp

variable [DecLib D]

theorem filePos_good : Good NP (fileNameAndPosition : Parser NEErr (FilePath × Option (Position D))) := by
  refine Good.commaField.pair @Upward.false (Good.map (Good.alt (ps := [_]) ?_ ?_) _)
  · intro p hp
    rw [List.mem_singleton] at hp; subst hp
    exact SafeF.eof.map _
  · exact ((Good.commaThen @Upward.false ofStr_no_panic).pair @Upward.false
      ((SafeF.comma.toSafe.context _).preceded @Upward.false ((SafeF.restType ofStr_no_panic).toSafe.context _))).map _

theorem comma_filePos_good (e : NEErr) :
    Good NP (preceded (context e comma) (fileNameAndPosition : Parser NEErr (FilePath × Option (Position D)))) :=
  (SafeF.comma.toSafe.context _).preceded @Upward.false filePos_good

theorem background_no_panic (s : Str) : (Background.parse s : Res NEErr (Background D)) ≠ .panic := by
  refine GoodAt.toRes (Good.at (hdr_good _ _ _ ?_) s)
  exact ((SafeF.commaFieldType parseI32_no_panic).toSafe.context _).bind @Upward.false fun st =>
    (comma_filePos_good _).bind @Upward.false fun x => .ret _

theorem spriteLegacy_no_panic (h s : Str) : (SpriteLegacy.parse h s : Res NEErr (SpriteLegacy D)) ≠ .panic := by
  refine GoodAt.toRes (Good.at (hdr_good _ _ _ ?_) s)
  exact ((SafeF.commaFieldType parseRepr_no_panic).toSafe.context _).bind @Upward.false fun l =>
    (Good.commaThen @Upward.false parseRepr_no_panic).bind @Upward.false fun o =>
    (comma_filePos_good _).bind @Upward.false fun x => .ret _

theorem sampleLegacy_no_panic (s : Str) : (SampleLegacy.parse s : Res NEErr (SampleLegacy D)) ≠ .panic := by
  refine GoodAt.toRes (Good.at (hdr_good _ _ _ ?_) s)
  refine ((SafeF.commaFieldType ofStr_no_panic).toSafe.context _).bind @Upward.false fun t =>
    (Good.commaThen @Upward.false parseRepr_no_panic).bind @Upward.false fun l =>
    ((SafeF.comma.toSafe.context _).preceded @Upward.false Good.commaField).bind @Upward.false fun f =>
    (Good.alt (ps := [_]) ?_ (((SafeF.comma.toSafe.context _).preceded @Upward.false
      ((SafeF.restType volume_no_panic).toSafe.context _)).map _)).bind @Upward.false fun v => .ret _
  intro p hp
  rw [List.mem_singleton] at hp; subst hp
  exact SafeF.eof.map _

omit [DecLib D] in
theorem audioSample_no_panic (s : Str) : AudioSample.parse s ≠ .panic := by
  unfold AudioSample.parse
  split
  · exact nofun
  · refine GoodAt.toRes (Good.at ?_ s)
    refine (hdr_good _ _ _ ((SafeF.commaFieldType parseI32_no_panic).toSafe.context _)).bind @Upward.false fun t =>
      ((SafeF.comma.toSafe.context _).preceded @Upward.false
        ((((SafeF.commaFieldType parseUsize_no_panic).toSafe.context _).toSafe.mapOpt _).context _)).bind @Upward.false fun l =>
      ((SafeF.comma.toSafe.context _).preceded @Upward.false Good.commaField).bind @Upward.false fun f =>
      (Good.alt (ps := [_]) ?_ (Good.commaThen @Upward.false volume_no_panic)).bind @Upward.false fun v => .ret _
    intro p hp
    rw [List.mem_singleton] at hp; subst hp
    exact SafeF.eof.map _

/-- A header, followed by a parser that is fine on the rest of the line. -/
theorem headed_at {α : Type} {hd : Parser NEErr Bool} {k : Bool → Parser NEErr α} {s r : Str} {sh : Bool}
    (h : hd s = .ok r sh) (hk : GoodAt (k sh) r) : GoodAt (hd.bind k) s := by
  refine GoodAt.bind ⟨by rw [h]; nofun, by rw [h]; nofun, by rw [h]; nofun⟩ fun r' a hr => ?_
  rw [h] at hr; cases hr; exact hk

theorem video_panics {v : Nat} {h : Str} {qs : List Str} (hqs : ∀ q ∈ qs, NoC ',' q) (hh : h = c!"1" ∨ h = c!"Video") :
    (Video.parse v (h ++ preC ',' qs) : Res NEErr (Video D)) = .panic ↔ ∃ t ps, qs = t :: ps ∧ TimeLost v t := by
  have hd : ∃ sh, headerP c!"1" c!"Video" (h ++ preC ',' qs) = .ok (preC ',' qs) sh := by
    rcases hh with rfl | rfl
    · exact ⟨true, rfl⟩
    · exact ⟨false, rfl⟩
  obtain ⟨sh, hd⟩ := hd
  constructor
  · intro hp
    apply Classical.byContradiction
    intro hn
    refine absurd hp (GoodAt.toRes (headed_at hd (GoodAt.bind (startTime_at hqs hn) fun r a _ => ?_)))
    exact ((comma_filePos_good _).bind @Upward.false fun x => .ret _).at _
  · rintro ⟨t, ps, rfl, ht⟩
    unfold Video.parse
    rw [bind_app, hd]
    simp only
    rw [bind_app, startTime_panic (hqs t (by simp)) ht]
    rfl

omit [DecLib D] in
theorem break_panics {v : Nat} {h : Str} {qs : List Str} (hqs : ∀ q ∈ qs, NoC ',' q) (hh : h = c!"2" ∨ h = c!"Break") :
    Break.parse v (h ++ preC ',' qs) = .panic ↔ (∃ t ps, qs = t :: ps ∧ TimeLost v t) ∨
      ∃ a b n n', qs = [a, b] ∧ parseI32 a = .ok n ∧ OldTime v n n' ∧ TimeLost v b := by
  have hd : ∃ sh, headerP c!"2" c!"Break" (h ++ preC ',' qs) = .ok (preC ',' qs) sh := by
    rcases hh with rfl | rfl
    · exact ⟨true, rfl⟩
    · exact ⟨false, rfl⟩
  obtain ⟨sh, hd⟩ := hd
  constructor
  · intro hp
    apply Classical.byContradiction
    intro hn
    refine absurd hp (GoodAt.toRes (headed_at hd (GoodAt.bind (startTime_at hqs fun hx => hn (.inl hx)) fun r a hr => ?_)))
    obtain ⟨q, qs', n, rfl, h1, h2, rfl⟩ := (startTime_pieces hqs).1 hr
    refine GoodAt.bind (endTime_at ?_) fun r a _ => (Good.ret _).at _
    rintro ⟨b, rfl, hb⟩
    exact hn (.inr ⟨q, b, n, a, rfl, h1, h2, hb⟩)
  · intro hx
    unfold Break.parse
    rw [bind_app, hd]
    simp only
    rcases hx with ⟨t, ps, rfl, ht⟩ | ⟨a, b, n, n', rfl, h1, h2, hb⟩
    · rw [bind_app, startTime_panic (hqs t (by simp)) ht]
      rfl
    · rw [bind_app, (startTime_pieces hqs).2 ⟨a, [b], n, rfl, h1, h2, rfl⟩]
      simp only
      obtain ⟨m, h3, h4⟩ := overflow_iff.1 hb
      have : preceded (context .missingEndTime comma) (endTimeOffset v) (preC ',' [b]) = .panic := by
        rw [preC_cons, preC_nil, List.append_nil]
        show endTimeOffset v b = .panic
        rw [endTime_eq, h3]
        simp only [h4]
      rw [bind_app, this]
      rfl

omit [DecLib D] in
theorem colourTransformation_panics {v : Nat} {qs : List Str} (hqs : ∀ q ∈ qs, NoC ',' q) :
    ColourTransformation.parse v (c!"3" ++ preC ',' qs) = .panic ↔ ∃ t ps, qs = t :: ps ∧ TimeLost v t := by
  have hb : ∀ st, Good NP ((preceded (context NEErr.missingRed comma) (context .invalidRed (commaFieldType parseU8))).bind fun r =>
      (preceded (context .missingGreen comma) (context .invalidGreen (commaFieldType parseU8))).bind fun g =>
      (preceded (context .missingBlue comma) (context .invalidBlue (restType parseU8))).bind fun b =>
      ret (⟨st, r, g, b⟩ : ColourTransformation)) := fun st =>
    (Good.commaThen @Upward.false parseU8_no_panic).bind @Upward.false fun r =>
    (Good.commaThen @Upward.false parseU8_no_panic).bind @Upward.false fun g =>
    ((SafeF.comma.toSafe.context _).preceded @Upward.false ((SafeF.restType parseU8_no_panic).toSafe.context _)).bind
      @Upward.false fun b => .ret _
  have hd : ∀ p : Parser NEErr Int32, preceded (pair (context .wrongEventType (tag c!"3")) (context .missingStartTime comma)) p
      (c!"3" ++ preC ',' qs) = preceded (context .missingStartTime comma) p (preC ',' qs) := by
    intro p
    cases qs <;> rfl
  constructor
  · intro hp
    apply Classical.byContradiction
    intro hn
    refine absurd hp (GoodAt.toRes (GoodAt.bind ?_ fun r a _ => (hb a).at _))
    have := startTime_at (e := .missingStartTime) hqs hn
    unfold GoodAt
    rw [hd]
    exact this
  · rintro ⟨t, ps, rfl, ht⟩
    unfold ColourTransformation.parse
    rw [bind_app, hd, startTime_panic (hqs t (by simp)) ht]
    rfl

end Ev

namespace SB.Object
open SB.Command (NP ofStr_no_panic)
open Ev (tail_noC)

omit [DecLib D] in
theorem layer_no_panic (s : Str) : Layer.parse s ≠ .panic := by
  unfold Layer.parse
  repeat' split
  all_goals exact nofun

omit [DecLib D] in
theorem origin_no_panic (s : Str) : Origin.parse s ≠ .panic := by
  unfold Origin.parse
  split
  · exact nofun
  · cases h : parseI32 s with
    | panic => exact absurd h (parseI32_no_panic s)
    | err e => exact nofun
    | ok n =>
      simp only [Res.bind]
      split <;> exact nofun

omit [DecLib D] in
theorem headP_good : Good NP headP :=
  (Good.commaThen @Upward.false layer_no_panic).bind @Upward.false fun l =>
  (Good.commaThen @Upward.false origin_no_panic).bind @Upward.false fun o =>
  ((SafeF.comma.toSafe.context _).preceded @Upward.false Good.commaField).bind @Upward.false fun p => .ret _

theorem positionP_good : Good NP (positionP : Parser ObjErr (Position D)) :=
  (Good.commaThen @Upward.false ofStr_no_panic).bind @Upward.false fun x =>
  (Good.commaThen @Upward.false ofStr_no_panic).bind @Upward.false fun y => .ret _

theorem spriteP_safe : SafeF NP (spriteP : Parser ObjErr (Object D)) :=
  (SafeF.tag _).preceded @Upward.false ((Good.cut (headP_good.bind @Upward.false fun x =>
    positionP_good.bind @Upward.false fun pos => .ret _)).map _).toSafeF

theorem decP_no_panic (s : Str) : (decP s : Res Unit D) ≠ .panic := by
  unfold decP
  cases (DecLib.parse s : Option D) <;> exact nofun

variable (D) in
/-- The pieces of an animation with a bad loop type. -/
def BadLoop (ps : List Str) : Prop := ∃ (la : Layer) (o f x y c d p : Str) (qs : List Str) (og : Origin) (n : UInt32) (delay : D),
  ps = la.shw :: o :: f :: x :: y :: c :: d :: p :: qs ∧ OriginReads o og ∧ parseU32 c = .ok n ∧
    DecLib.parse d = some delay ∧ ∀ lt, ¬LoopTail (p :: qs) lt

omit [DecLib D] in
theorem loopType_at {qs : List Str} (h : qs = [] ∨ ∃ lt, LoopTail qs lt) : GoodAt loopTypeP (preC ',' qs) := by
  have : ∃ lt, LoopTail qs lt := by
    rcases h with rfl | h
    · exact ⟨_, .none⟩
    · exact h
  obtain ⟨lt, h⟩ := this
  have := loopType_pieces.2 ⟨rfl, h⟩
  exact ⟨by rw [this]; nofun, by rw [this]; nofun, by rw [this]; nofun⟩

omit [DecLib D] in
theorem loopType_bad {p : Str} {qs : List Str} (h : ∀ lt, ¬LoopTail (p :: qs) lt) :
    ∃ e, loopTypeP (preC ',' (p :: qs)) = .error e ∧ firstCtx e = none := by
  have hn : ∀ r a, loopTypeP (preC ',' (p :: qs)) ≠ .ok r a := fun r a hx => h a (loopType_pieces.1 hx).2
  rw [preC_cons] at hn ⊢
  generalize p ++ preC ',' qs = x at hn ⊢
  have hc : loopTypeP (',' :: x) = match LoopType.parse x with
      | .ok l => .ok [] l
      | .err _ => .error [(',' :: x, .nom .eof), (',' :: x, .nom .alt)]
      | .panic => .panic := by
    unfold loopTypeP alt altAux
    have : preceded (context ObjErr.missingLoopType comma) (context .invalidLoopType (restType LoopType.parse)) (',' :: x) =
        context .invalidLoopType (restType LoopType.parse) x := rfl
    rw [this]
    unfold context restType mapRes rest
    cases hl : LoopType.parse x with
    | ok l => simp only [hl]
    | panic => simp only [hl]
    | err e => simp only [hl]; rfl
  rw [hc] at hn ⊢
  cases hl : LoopType.parse x with
  | ok l => rw [hl] at hn; exact absurd rfl (hn _ _)
  | err e => exact ⟨_, rfl, rfl⟩
  | panic =>
    exfalso
    unfold LoopType.parse at hl
    split at hl
    · cases hl
    · split at hl <;> cases hl

/-- The animation parser after its header. -/
theorem animBody_at {qs : List Str} (hqs : ∀ q ∈ qs, NoC ',' q) (h : ¬BadLoop D qs) :
    GoodAt (headP.bind fun (l, o, p) => positionP.bind fun (pos : Position D) =>
    (preceded (context .missingFrameCount comma) (context .invalidFrameCount (commaFieldType parseU32))).bind fun n =>
    (preceded (context .missingFrameDelay comma) (context .invalidFrameDelay (commaFieldType decP))).bind fun (d : D) =>
    loopTypeP.bind fun lt => ret (l, o, p, pos, n, d, lt)) (preC ',' qs) := by
  refine GoodAt.bind (headP_good.at _) fun r x hr => ?_
  obtain ⟨l, og, f⟩ := x
  obtain ⟨o, q1, rfl, h1, rfl⟩ := (head_pieces hqs).1 hr
  have hq1 := tail_noC (tail_noC (tail_noC hqs))
  refine GoodAt.bind (positionP_good.at _) fun r x hr => ?_
  obtain ⟨a, b, q2, rfl, rfl, rfl⟩ := (position_pieces hq1).1 hr
  have hq2 := tail_noC (tail_noC hq1)
  refine GoodAt.bind ((Good.commaThen @Upward.false parseU32_no_panic).at _) fun r n hr => ?_
  obtain ⟨c, q3, rfl, h2, rfl⟩ := (commaThen_pieces hq2).1 hr
  refine GoodAt.bind ((Good.commaThen @Upward.false decP_no_panic).at _) fun r d hr => ?_
  obtain ⟨ds, q4, rfl, h3, rfl⟩ := (commaThen_pieces (tail_noC hq2)).1 hr
  refine GoodAt.bind (loopType_at ?_) fun r lt _ => (Good.ret _).at _
  cases q4 with
  | nil => exact .inl rfl
  | cons p q4 =>
    refine .inr (Classical.byContradiction fun hn => ?_)
    exact h ⟨l, o, f, a, b, c, ds, p, q4, og, n, d, rfl, h1, h2, decP_iff.1 h3, fun lt hl => hn ⟨lt, hl⟩⟩

theorem animation_at {p : Str} {qs : List Str} (hp : NoC ',' p) (hqs : ∀ q ∈ qs, NoC ',' q)
    (h : ¬(p = c!"Animation" ∧ BadLoop D qs)) :
    (animationP : Parser ObjErr (Object D)) (p ++ preC ',' qs) ≠ .panic ∧
      ∀ e, (animationP : Parser ObjErr (Object D)) (p ++ preC ',' qs) = .failure e → (firstCtx e).isSome := by
  by_cases ht : ∃ r, p ++ preC ',' qs = c!"Animation" ++ r
  · obtain ⟨r, hr⟩ := ht
    have hg : GoodAt (animationP : Parser ObjErr (Object D)) (p ++ preC ',' qs) := by
      refine GoodAt.map ?_ _
      refine GoodAt.bind ?_ fun r' a hr' => GoodAt.cut ?_
      · have : (tag c!"Animation" : Parser ObjErr Str) (p ++ preC ',' qs) = .ok r c!"Animation" := tag_eq_ok.2 ⟨hr, rfl⟩
        exact ⟨by rw [this]; nofun, by rw [this]; nofun, by rw [this]; nofun⟩
      · obtain ⟨hr2, rfl⟩ := tag_eq_ok.1 hr'
        by_cases ha : AtComma r'
        · obtain ⟨rfl, rfl⟩ : p = c!"Animation" ∧ r' = preC ',' qs := by
            obtain ⟨h1, h2⟩ := noC_unique hp (Command.NoC_hdr (h := c!"Animation") (by rfl)) (atComma_preC qs) ha hr2
            exact ⟨h1, h2.symm⟩
          exact animBody_at hqs fun hb => h ⟨rfl, hb⟩
        · refine GoodAt.bind (headP_good.at _) fun r x hr => ?_
          exact absurd (Ev.commaBind_at hr) ha
    exact ⟨hg.1, hg.2.1⟩
  · obtain ⟨e, he⟩ : ∃ e, (animationP : Parser ObjErr (Object D)) (p ++ preC ',' qs) = .error e := by
      refine map_err (preceded_err (tag_err ?_))
      cases hb : (c!"Animation").isPrefixOf (p ++ preC ',' qs) with
      | false => rfl
      | true =>
        obtain ⟨r, hr⟩ := List.isPrefixOf_iff_prefix.1 hb
        exact absurd ⟨r, hr.symm⟩ ht
    rw [he]
    exact ⟨nofun, nofun⟩

theorem object_panics {p : Str} {qs : List Str} (hp : NoC ',' p) (hqs : ∀ q ∈ qs, NoC ',' q) :
    (Object.parse (p ++ preC ',' qs) : Res ObjErr (Object D)) = .panic ↔ p = c!"Animation" ∧ BadLoop D qs := by
  constructor
  · intro hx
    apply Classical.byContradiction
    intro hn
    obtain ⟨h1, h2⟩ := animation_at hp hqs hn
    refine absurd hx (GoodAt.toRes ?_)
    refine GoodAt.alt_cons (fun h => spriteP_safe.panic h) (fun e h => spriteP_safe.failure h) (by simp) ?_
    refine GoodAt.alt_cons h1 h2 (by simp) ?_
    exact GoodAt.alt_one ((SafeF.fail.toSafe.context _).at _)
  · rintro ⟨rfl, l, o, f, a, b, c, ds, p, q4, og, n, d, rfl, h4, h9, h12, h15⟩
    obtain ⟨e, he, hc⟩ := loopType_bad h15
    have hq1 := tail_noC (tail_noC (tail_noC hqs))
    have hq2 := tail_noC (tail_noC hq1)
    have hs : ∃ e, (spriteP : Parser ObjErr (Object D)) (c!"Animation" ++ preC ',' (l.shw :: o :: f :: a :: b :: c :: ds :: p :: q4)) = .error e :=
      preceded_err (tag_err rfl)
    obtain ⟨e1, hs⟩ := hs
    have ha : (animationP : Parser ObjErr (Object D)) (c!"Animation" ++ preC ',' (l.shw :: o :: f :: a :: b :: c :: ds :: p :: q4)) = .failure e := by
      have ht : ∀ r, (tag c!"Animation" : Parser ObjErr Str) (c!"Animation" ++ r) = .ok r c!"Animation" := fun r => tag_eq_ok.2 ⟨rfl, rfl⟩
      have g1 : headP (preC ',' (l.shw :: o :: f :: a :: b :: c :: ds :: p :: q4)) = .ok (preC ',' (a :: b :: c :: ds :: p :: q4)) (l, og, f) :=
        (head_pieces hqs).2 ⟨o, _, rfl, h4, rfl⟩
      have g2 : positionP (preC ',' (a :: b :: c :: ds :: p :: q4)) = .ok (preC ',' (c :: ds :: p :: q4)) (⟨.ofStr a, .ofStr b⟩ : Position D) :=
        (position_pieces hq1).2 ⟨a, b, _, rfl, rfl, rfl⟩
      have g3 : preceded (context ObjErr.missingFrameCount comma) (context .invalidFrameCount (commaFieldType parseU32))
          (preC ',' (c :: ds :: p :: q4)) = .ok (preC ',' (ds :: p :: q4)) n := (commaThen_pieces hq2).2 ⟨c, _, rfl, h9, rfl⟩
      have g4 : preceded (context ObjErr.missingFrameDelay comma) (context .invalidFrameDelay (commaFieldType decP))
          (preC ',' (ds :: p :: q4)) = .ok (preC ',' (p :: q4)) d := (commaThen_pieces (tail_noC hq2)).2 ⟨ds, _, rfl, decP_iff.2 h12, rfl⟩
      unfold animationP Parser.map
      rw [preceded, bind_app, ht]
      simp only [Parser.cut]
      rw [bind_app, g1]
      simp only
      rw [bind_app, g2]
      simp only
      rw [bind_app, g3]
      simp only
      rw [bind_app, g4]
      simp only
      rw [bind_app, he]
    unfold Object.parse objectP alt altAux
    rw [hs]
    simp only [altAux, ha, PRes.toRes, hc]

end SB.Object

namespace Ev
open SB.Object (BadLoop)

omit [DecLib D] in
theorem kind_bad {h t : Str} {c : Char} (hh : h ∈ eventHeaders) (hc : c ≠ ',') : kindOf (h ++ c :: t) = none := by
  have hc' : (',' == c) = false := by rw [beq_eq_false_iff_ne]; exact fun h => hc h.symm
  simp only [eventHeaders, List.mem_cons, List.not_mem_nil, or_false] at hh
  rcases hh with rfl | rfl | rfl | rfl | rfl | rfl | rfl | rfl | rfl <;>
    simp [kindOf, kindsP, kindP, alt, altAux, Parser.map, peek, pair, Parser.bind, tag, Parser.cut, eof, comma, List.isPrefixOf, hc']

omit [DecLib D] in
theorem kindP_none {tags : List Str} {k : Kind} {s : Str} (h : ∀ t ∈ tags, t.isPrefixOf s = false) (ht : tags ≠ []) :
    ∃ e, kindP tags k s = .error e := by
  have key : ∀ (tags : List Str) (e0 : VErr Unit), (∀ t ∈ tags, t.isPrefixOf s = false) →
      ∃ e, altAux e0 s (tags.map (tag : Str → Parser Unit Str)) = .error e := by
    intro tags
    induction tags with
    | nil => intro e0 _; exact ⟨_, rfl⟩
    | cons t ts ih =>
      intro e0 h
      obtain ⟨e, he⟩ := tag_err (γ := Unit) (h t (by simp))
      simp only [List.map_cons, altAux, he]
      exact ih e fun t ht => h t (by simp [ht])
  obtain ⟨e, he⟩ := key tags [] h
  unfold kindP Parser.map peek pair
  rw [bind_app]
  unfold alt
  rw [he]
  exact ⟨_, rfl⟩

omit [DecLib D] in
theorem kind_other {s : Str} (h : ∀ t ∈ eventHeaders, t.isPrefixOf s = false) : kindOf s = some .other := by
  have key : ∀ (tags : List Str) (k : Kind), (∀ t ∈ tags, t ∈ eventHeaders) → tags ≠ [] → ∃ e, kindP tags k s = .error e :=
    fun tags k hs ht => kindP_none (fun t h' => h t (hs t h')) ht
  obtain ⟨e1, h1⟩ := key [c!"0"] .background (by decide) (by simp)
  obtain ⟨e2, h2⟩ := key [c!"1", c!"Video"] .video (by decide) (by simp)
  obtain ⟨e3, h3⟩ := key [c!"2", c!"Break"] .break_ (by decide) (by simp)
  obtain ⟨e4, h4⟩ := key [c!"3"] .colourTransformation (by decide) (by simp)
  obtain ⟨e5, h5⟩ := key [c!"4"] .spriteLegacy (by decide) (by simp)
  obtain ⟨e6, h6⟩ := key [c!"5"] .animationLegacy (by decide) (by simp)
  obtain ⟨e7, h7⟩ := key [c!"6"] .sampleLegacy (by decide) (by simp)
  simp only [kindOf, kindsP, alt, altAux, h1, h2, h3, h4, h5, h6, h7, ret]

omit [DecLib D] in
theorem header_noC {h : Str} (hh : h ∈ eventHeaders) : NoC ',' h := by
  simp only [eventHeaders, List.mem_cons, List.not_mem_nil, or_false] at hh
  rcases hh with rfl | rfl | rfl | rfl | rfl | rfl | rfl | rfl | rfl <;> exact Command.NoC_hdr (by rfl)

omit [DecLib D] in
/-- A text without commas at the start of a line lies within its first piece. -/
theorem within_first {h r p : Str} {qs : List Str} (hh : NoC ',' h) (he : p ++ preC ',' qs = h ++ r) :
    ∃ x, p = h ++ x ∧ r = x ++ preC ',' qs := by
  rcases List.append_eq_append_iff.1 he with ⟨a, rfl, h2⟩ | ⟨a, rfl, h2⟩
  · cases a with
    | nil => exact ⟨[], by simp, by simpa using h2.symm⟩
    | cons c a =>
      exfalso
      cases qs with
      | nil => rw [preC_nil] at h2; cases h2
      | cons q qs =>
        rw [preC_cons] at h2
        injection h2 with h2 _
        subst h2
        have := hh ',' (by simp)
        simp at this
  · exact ⟨a, rfl, h2⟩

theorem evPanics_pieces {v : Nat} {p : Str} {qs : List Str} (hp : NoC ',' p) (hqs : ∀ q ∈ qs, NoC ',' q) :
    EvPanics D v (p ++ preC ',' qs) ↔ (∃ h ∈ eventHeaders, ∃ c t, p = h ++ c :: t) ∨
      (p ∈ movedHeaders ∧ ∃ t ps, qs = t :: ps ∧ TimeLost v t) ∨
      ((p = c!"2" ∨ p = c!"Break") ∧ ∃ a b n n', qs = [a, b] ∧ parseI32 a = .ok n ∧ OldTime v n n' ∧ TimeLost v b) ∨
      (p = c!"Animation" ∧ BadLoop D qs) := by
  have hs : splitOnC ',' (p ++ preC ',' qs) = p :: qs := splitOnC_iff.2 ⟨rfl, hp, hqs⟩
  constructor
  · generalize hx : p ++ preC ',' qs = x at hs
    intro h
    cases h with
    | @header h t c hh hc =>
      obtain ⟨y, rfl, h2⟩ := within_first (header_noC hh) hx
      refine .inl ⟨h, hh, ?_⟩
      cases y with
      | cons c' t' => exact ⟨c', t', rfl⟩
      | nil =>
        exfalso
        cases qs with
        | nil => rw [preC_nil] at h2; cases h2
        | cons q qs => rw [preC_cons] at h2; injection h2 with h2 _; exact hc h2
    | startTime hl hh ht =>
      rw [hs] at hl; cases hl
      exact .inr (.inl ⟨hh, _, _, rfl, ht⟩)
    | endTime hl hh ha hn hb =>
      rw [hs] at hl; cases hl
      exact .inr (.inr (.inl ⟨hh, _, _, _, _, rfl, ha, hn, hb⟩))
    | loopType hl ho hc hd hb =>
      rw [hs] at hl; cases hl
      exact .inr (.inr (.inr ⟨rfl, _, _, _, _, _, _, _, _, _, _, _, _, rfl, ho, hc, hd, hb⟩))
  · rintro (⟨h, hh, c, t, rfl⟩ | ⟨hh, t, ps, rfl, ht⟩ | ⟨hh, a, b, n, n', rfl, ha, hn, hb⟩ | ⟨rfl, l, o, f, a, b, c, ds, p, q4, og, n, d, rfl, h4, h9, h12, h15⟩)
    · rw [List.append_assoc, List.cons_append]
      refine .header hh ?_
      rintro rfl
      have := hp ',' (by simp)
      simp at this
    · exact .startTime hs hh ht
    · exact .endTime hs hh ha hn hb
    · exact .loopType hs h4 h9 h12 h15

omit [DecLib D] in
theorem mapEv_panic {ε α β δ : Type} {f : α → β} {g : ε → δ} {x : Res ε α} : mapEv f g x = .panic ↔ x = .panic := by
  cases x <;> simp [mapEv]

theorem parseOther_panic {s : Str} : (parseOther s : Res EvErr (Event D)) = .panic ↔ (Object.parse s : Res ObjErr (Object D)) = .panic := by
  unfold parseOther
  cases h : (Object.parse s : Res ObjErr (Object D)) with
  | ok o => simp
  | panic => simp
  | err e =>
    have := audioSample_no_panic s
    cases e <;> simp
    split <;> simp_all

/-- A line that starts an event panics exactly in the listed cases. -/
theorem event_panics {v : Nat} {l : Str} : (parseEvent v l : Res EvErr (Event D)) = .panic ↔ EvPanics D v l := by
  obtain ⟨p, qs, hs⟩ : ∃ p qs, splitOnC ',' l = p :: qs := by
    cases h : splitOnC ',' l with
    | nil => exact absurd h (splitOnC_ne_nil _ _)
    | cons p qs => exact ⟨p, qs, rfl⟩
  obtain ⟨rfl, hp, hqs⟩ := splitOnC_iff.1 hs
  rw [evPanics_pieces hp hqs]
  unfold parseEvent
  by_cases hh : p ∈ eventHeaders
  · have nope : ¬∃ h ∈ eventHeaders, ∃ c t, p = h ++ c :: t := by
      rintro ⟨h, hh', c, t, rfl⟩
      simp only [eventHeaders, List.mem_cons, List.not_mem_nil, or_false] at hh hh'
      rcases hh' with rfl | rfl | rfl | rfl | rfl | rfl | rfl | rfl | rfl <;> simp at hh
    simp only [nope, false_or]
    simp only [eventHeaders, List.mem_cons, List.not_mem_nil, or_false] at hh
    rcases hh with rfl | rfl | rfl | rfl | rfl | rfl | rfl | rfl | rfl
    · rw [kind_head _ (.inl ⟨rfl, rfl⟩)]
      simp [mapEv_panic, background_no_panic, movedHeaders]
    · rw [kind_head _ (.inr (.inl ⟨.inl rfl, rfl⟩))]
      simp only [mapEv_panic]
      rw [video_panics hqs (.inl rfl)]
      simp [movedHeaders]
    · rw [kind_head _ (.inr (.inr (.inl ⟨.inl rfl, rfl⟩)))]
      simp only [mapEv_panic]
      rw [break_panics hqs (.inl rfl)]
      simp [movedHeaders]
    · rw [kind_head _ (.inr (.inr (.inr (.inl ⟨rfl, rfl⟩))))]
      simp only [mapEv_panic]
      rw [colourTransformation_panics hqs]
      simp [movedHeaders]
    · rw [kind_head _ (.inr (.inr (.inr (.inr (.inl ⟨rfl, rfl⟩)))))]
      simp [mapEv_panic, spriteLegacy_no_panic, movedHeaders]
    · rw [kind_head _ (.inr (.inr (.inr (.inr (.inr (.inl ⟨rfl, rfl⟩))))))]
      simp [mapEv_panic, spriteLegacy_no_panic, movedHeaders]
    · rw [kind_head _ (.inr (.inr (.inr (.inr (.inr (.inr (.inl ⟨rfl, rfl⟩)))))))]
      simp [mapEv_panic, sampleLegacy_no_panic, movedHeaders]
    · rw [kind_head _ (.inr (.inl ⟨.inr rfl, rfl⟩))]
      simp only [mapEv_panic]
      rw [video_panics hqs (.inr rfl)]
      simp [movedHeaders]
    · rw [kind_head _ (.inr (.inr (.inl ⟨.inr rfl, rfl⟩)))]
      simp only [mapEv_panic]
      rw [break_panics hqs (.inr rfl)]
      simp [movedHeaders]
  · by_cases hb : ∃ h ∈ eventHeaders, ∃ c t, p = h ++ c :: t
    · simp only [hb, true_or, iff_true]
      obtain ⟨h, hh', c, t, rfl⟩ := hb
      rw [List.append_assoc, List.cons_append, kind_bad hh']
      rintro rfl
      have := hp ',' (by simp)
      simp at this
    · have hk : kindOf (p ++ preC ',' qs) = some .other := by
        refine kind_other fun h hm => ?_
        cases hx : h.isPrefixOf (p ++ preC ',' qs) with
        | false => rfl
        | true =>
          exfalso
          obtain ⟨r, hr⟩ := List.isPrefixOf_iff_prefix.1 hx
          obtain ⟨y, rfl, _⟩ := within_first (header_noC hm) hr.symm
          cases y with
          | nil => rw [List.append_nil] at hh; exact hh hm
          | cons c t => exact hb ⟨h, hm, c, t, rfl⟩
      rw [hk]
      simp only [parseOther_panic, hb, false_or]
      rw [SB.Object.object_panics hp hqs]
      have m1 : p ∉ movedHeaders := by
        intro hm
        apply hh
        simp only [movedHeaders, List.mem_cons, List.not_mem_nil, or_false] at hm
        rcases hm with rfl | rfl | rfl | rfl | rfl <;> decide
      have m2 : ¬(p = c!"2" ∨ p = c!"Break") := by
        rintro (rfl | rfl) <;> exact hh (by decide)
      simp [m1, m2]

end Ev

section
variable [UniLib]

theorem evPanics_first {v : Nat} {l : Str} (h : EvPanics D v l) :
    ∃ c t, l = c :: t ∧ c ∈ ['0', '1', '2', '3', '4', '5', '6', 'V', 'B', 'A'] := by
  have piece : ∀ {p : Str} {qs : List Str}, splitOnC ',' l = p :: qs → l = p ++ preC ',' qs := fun hl => (splitOnC_iff.1 hl).1
  cases h with
  | header hh _ =>
    simp only [eventHeaders, List.mem_cons, List.not_mem_nil, or_false] at hh
    rcases hh with rfl | rfl | rfl | rfl | rfl | rfl | rfl | rfl | rfl <;> exact ⟨_, _, rfl, by decide⟩
  | startTime hl hh _ =>
    rw [piece hl]
    simp only [movedHeaders, List.mem_cons, List.not_mem_nil, or_false] at hh
    rcases hh with rfl | rfl | rfl | rfl | rfl <;> exact ⟨_, _, rfl, by decide⟩
  | endTime hl hh _ _ _ =>
    rw [piece hl]
    rcases hh with rfl | rfl <;> exact ⟨_, _, rfl, by decide⟩
  | loopType hl _ _ _ _ =>
    rw [piece hl]
    exact ⟨_, _, rfl, by decide⟩

theorem linePanics_nonblank {v : Nat} {evs : List (Event D)} {l : Str} (h : LinePanics v evs l) : trim l ≠ [] := by
  rw [Ne, trim_eq_nil]
  intro hw
  cases h with
  | event _ h =>
    obtain ⟨c, t, rfl, hc⟩ := evPanics_first h
    have := hw c (by simp)
    simp only [List.mem_cons, List.not_mem_nil, or_false] at hc
    rcases hc with rfl | rfl | rfl | rfl | rfl | rfl | rfl | rfl | rfl | rfl <;> revert this <;> decide
  | command _ _ _ h =>
    rcases h with h | ⟨x, qs, h, _⟩
    · have : ',' ∈ l := Classical.byContradiction fun hn => h fun hc => absurd hc hn
      exact absurd (hw ',' this) (by decide)
    · have e := (splitOnC_iff.1 h).1
      have : 'T' ∈ l := by
        have : 'T' ∈ l.dropWhile (fun c => c == ' ' || c == '_') := by rw [e]; simp
        exact (List.dropWhile_sublist _).mem this
      exact absurd (hw 'T' this) (by decide)

theorem cmdParse_panics {l : Str} : (cmdParse [] l : Res EvErr (Command D)) = .panic ↔
    ¬HeaderCuts l ∨ CmdPanics (splitOnC ',' (l.dropWhile fun c => c == ' ' || c == '_')) := by
  unfold cmdParse
  rw [← withoutHeader_iff]
  cases h : withoutHeader l with
  | none => simp
  | some t =>
    have := SB.Command.command_panics (D := D) (s := l)
    simp only [substVars]
    constructor
    · intro hx
      right
      refine this.1 ?_
      cases hy : (Command.parse l : Res CmdErr (Command D)) with
      | panic => rfl
      | ok c => rw [hy] at hx; cases hx
      | err c => rw [hy] at hx; cases hx
    · rintro (hx | hx)
      · exact absurd ⟨t, rfl⟩ hx
      · rw [this.2 hx]; rfl

/-- A line panics exactly in the listed cases. -/
theorem step_panics {v : Nat} {evs : List (Event D)} {l : Str} :
    step v [] evs l = .panic ↔ LinePanics v evs l := by
  unfold step
  by_cases hb : trim l = []
  · rw [if_pos hb]
    exact ⟨nofun, fun h => absurd hb (linePanics_nonblank h)⟩
  rw [if_neg hb]
  cases hc : stripPrefix c!"//" l with
  | some r =>
    simp only
    refine ⟨nofun, fun h => ?_⟩
    have hl := (SB.TriggerType.stripPrefix_iff).1 hc
    subst hl
    cases h with
    | event _ h =>
      obtain ⟨c, t, h, hc⟩ := evPanics_first h
      injection h with h _
      subst h
      exact absurd hc (by decide)
    | command h0 _ _ _ => exact absurd h0 (by simp [indentOf])
  | none =>
    simp only
    have hi : (l.takeWhile Command.isIndent).length = indentOf l := rfl
    rw [hi]
    by_cases h0 : indentOf l = 0
    · rw [if_neg (by omega)]
      have := event_panics (D := D) (v := v) (l := l)
      constructor
      · intro h
        refine .event h0 (this.1 ?_)
        cases hx : (parseEvent v l : Res EvErr (Event D)) with
        | panic => rfl
        | ok e => rw [hx] at h; cases h
        | err e => rw [hx] at h; cases h
      · intro h
        cases h with
        | event _ h => rw [this.2 h]
        | command h1 _ _ _ => omega
    · rw [if_pos (by omega)]
      unfold stepCmd
      constructor
      · intro h
        cases he : evs.getLast? with
        | none => rw [he] at h; cases h
        | some e =>
          rw [he] at h
          simp only at h
          cases hcs : e.commands with
          | none => rw [hcs] at h; cases h
          | some cs =>
            rw [hcs] at h
            simp only at h
            refine .command (by omega) he (by rw [hcs]; rfl) (cmdParse_panics (D := D).1 ?_)
            cases hx : (cmdParse [] l : Res EvErr (Command D)) with
            | panic => rfl
            | err e => rw [hx] at h; cases h
            | ok c =>
              rw [hx] at h
              simp only at h
              have := tryPush_no_panic cs c (indentOf l) (by omega)
              split at h
              · cases h
              · cases h
              · rename_i hp; rw [hp] at this; exact absurd rfl this
      · intro h
        cases h with
        | event h1 _ => omega
        | command h1 he hcs h =>
          rw [he]
          simp only
          obtain ⟨cs, hcs⟩ := Option.isSome_iff_exists.1 hcs
          rw [hcs]
          simp only
          rw [cmdParse_panics.2 h]

variable {v : Nat} {vars : List Variable}

theorem loop_append (a b : List Str) : ∀ (n : Nat) (acc : List (Event D)),
    loop v vars n acc (a ++ b) = (loop v vars n acc a).bind fun evs => loop v vars (n + a.length) evs b := by
  induction a with
  | nil => intro n acc; rfl
  | cons l ls ih =>
    intro n acc
    rw [List.cons_append, loop, loop]
    cases hs : step v vars acc l with
    | ok acc' =>
      simp only
      rw [ih, show n + 1 + ls.length = n + (l :: ls).length by simp; omega]
    | err e => rfl
    | panic => rfl

theorem loop_panic {ls : List Str} : ∀ {n : Nat} {acc : List (Event D)}, loop v vars n acc ls = .panic ↔
    ∃ pre l post evs, ls = pre ++ l :: post ∧ loop v vars n acc pre = .ok evs ∧ step v vars evs l = .panic := by
  intro n acc
  constructor
  · induction ls generalizing n acc with
    | nil => intro h; cases h
    | cons l ls ih =>
      intro h
      rw [loop] at h
      cases hs : step v vars acc l with
      | panic => exact ⟨[], l, ls, acc, rfl, rfl, hs⟩
      | err e => rw [hs] at h; cases h
      | ok acc' =>
        rw [hs] at h
        obtain ⟨pre, l', post, evs, rfl, h1, h2⟩ := ih h
        exact ⟨l :: pre, l', post, evs, rfl, by rw [loop, hs]; exact h1, h2⟩
  · rintro ⟨pre, l, post, evs, rfl, h1, h2⟩
    rw [loop_append, h1]
    simp only [Res.bind]
    rw [loop, h2]

theorem loop_err {ls : List Str} {k : Nat} {e : EvErr} : ∀ {n : Nat} {acc : List (Event D)}, loop v vars n acc ls = .err ⟨k, e⟩ ↔
    ∃ pre l post evs, ls = pre ++ l :: post ∧ k = n + pre.length ∧ loop v vars n acc pre = .ok evs ∧ step v vars evs l = .err e := by
  intro n acc
  constructor
  · induction ls generalizing n acc with
    | nil => intro h; cases h
    | cons l ls ih =>
      intro h
      rw [loop] at h
      cases hs : step v vars acc l with
      | panic => rw [hs] at h; cases h
      | err e => rw [hs] at h; cases h; exact ⟨[], l, ls, acc, rfl, rfl, rfl, hs⟩
      | ok acc' =>
        rw [hs] at h
        obtain ⟨pre, l', post, evs, rfl, h0, h1, h2⟩ := ih h
        exact ⟨l :: pre, l', post, evs, rfl, by rw [h0]; simp; omega, by rw [loop, hs]; exact h1, h2⟩
  · rintro ⟨pre, l, post, evs, rfl, rfl, h1, h2⟩
    rw [loop_append, h1]
    simp only [Res.bind]
    rw [loop, h2]

theorem loop_section {ls : List Str} {n : Nat} {evs : List (Event D)} :
    loop v [] n [] ls = .ok evs ↔ SectionReads v CmdLineReads (ls.filter nonBlank) evs := by
  constructor
  · intro h
    have := loop_reads _ _ [] [] _ .nil h
    simp only [List.nil_append] at this
    exact this.mono fun _ _ => cmdLineParses_nil.1
  · intro h
    rw [loop_filter]
    simpa using reads_loop (h.mono fun _ _ => cmdLineParses_nil.2) n []

/-- The section panics exactly if a line panics after an accepted prefix. -/
theorem events_panics {s : Str} : (Events.parse v s : Res (LErr EvErr) (List (Event D))) = .panic ↔
    ∃ pre l post, ∃ evs : List (Event D), lines s = pre ++ l :: post ∧
      SectionReads v CmdLineReads (pre.filter nonBlank) evs ∧ LinePanics v evs l := by
  unfold Events.parse Events.parseVars
  rw [loop_panic]
  simp only [loop_section, step_panics]

/-- The section is rejected at the first line that cannot be added. -/
theorem events_error {s : Str} {k : Nat} : (∃ e, (Events.parse v s : Res (LErr EvErr) (List (Event D))) = .err ⟨k, e⟩) ↔
    ∃ pre l post, ∃ evs : List (Event D), lines s = pre ++ l :: post ∧ pre.length = k ∧
      SectionReads v CmdLineReads (pre.filter nonBlank) evs ∧ ¬Blank l ∧ ¬LinePanics v evs l ∧
      ∀ evs' : List (Event D), ¬SectionReads v CmdLineReads (pre.filter nonBlank ++ [l]) evs' := by
  unfold Events.parse Events.parseVars
  have snoc : ∀ {pre : List Str} {l : Str} {evs evs' : List (Event D)}, ¬Blank l → loop v [] 0 [] pre = .ok evs →
      (SectionReads v CmdLineReads (pre.filter nonBlank ++ [l]) evs' ↔ step v [] evs l = .ok evs') := by
    intro pre l evs evs' hb hpre
    have : pre.filter nonBlank ++ [l] = (pre ++ [l]).filter nonBlank := by
      rw [List.filter_append]
      congr 1
      rw [List.filter_cons_of_pos]
      · rfl
      · rw [nonBlank_iff]; exact fun h => hb (blank_iff.2 (nonBlank_false.2 h))
    rw [this, ← loop_section (n := 0), loop_append, hpre]
    simp only [Res.bind, loop]
    cases step v [] evs l <;> simp [loop]
  constructor
  · rintro ⟨e, h⟩
    obtain ⟨pre, l, post, evs, h1, rfl, h2, h3⟩ := loop_err.1 h
    have hb : ¬Blank l := by
      intro hb
      rw [step, if_pos (nonBlank_false.1 (blank_iff.1 hb))] at h3; cases h3
    refine ⟨pre, l, post, evs, h1, by simp, loop_section.1 h2, hb, ?_, ?_⟩
    · rw [← step_panics, h3]; exact nofun
    · intro evs' hr
      rw [snoc hb h2, h3] at hr; cases hr
  · rintro ⟨pre, l, post, evs, h1, rfl, h2, hb, h3, h4⟩
    have h2' := (loop_section (n := 0)).2 h2
    cases hs : step v [] evs l with
    | ok evs' => exact absurd ((snoc hb h2').2 hs) (h4 evs')
    | panic => exact absurd (step_panics.1 hs) h3
    | err e => exact ⟨e, loop_err.2 ⟨pre, l, post, evs, h1, by simp, h2', hs⟩⟩

/-- Blank lines only move the line index of an error. -/
theorem loop_filter_err (ls : List Str) : ∀ (n m : Nat) (acc : List (Event D)),
    (loop v vars n acc ls).mapErr LErr.error = (loop v vars m acc (ls.filter nonBlank)).mapErr LErr.error := by
  induction ls with
  | nil => intro n m acc; rfl
  | cons l ls ih =>
    intro n m acc
    by_cases hb : trim l = []
    · rw [List.filter_cons_of_neg (by rw [nonBlank_false.2 hb]; decide), loop, step, if_pos hb]
      exact ih _ _ _
    · rw [List.filter_cons_of_pos (nonBlank_iff.2 hb), loop, loop]
      cases hs : step v vars acc l with
      | ok acc' => exact ih _ _ _
      | err e => rfl
      | panic => rfl

end

theorem contentLines_eq (ls : List Str) : contentLines ls = ls.filter nonBlank := by
  unfold contentLines
  congr 1
  funext l
  cases h : nonBlank l with
  | false => simp [blank_iff.2 h]
  | true =>
    have : ¬Blank l := fun hb => by rw [blank_iff.1 hb] at h; cases h
    simp [this]

end Osu
