/-
The build without overflow checks: relation to the build with them.
-/
import Verif.Spec.Release
import Verif.Proof.FileTop
import Verif.Proof.EventsRT

namespace Osu
open SB Ev Parser

/-! ### Times -/

theorem moveTime_zero (t : Int32) : moveTime 0 t = t := by
  unfold moveTime
  rw [Int.add_zero, Int32.ofInt_toInt]

theorem moveTime_add (j k : Int) (t : Int32) : moveTime j (moveTime k t) = moveTime (k + j) t := by
  unfold moveTime
  apply Int32.toInt_inj.1
  rw [Int32.toInt_ofInt, Int32.toInt_ofInt, Int32.toInt_ofInt, Int.add_bmod, Int.bmod_bmod, ← Int.add_bmod, Int.add_assoc]

theorem move_back (k : Int) (t : Int32) : moveTime k (moveTime (-k) t) = t := by
  rw [moveTime_add, Int.add_comm, Int.add_right_neg, moveTime_zero]

theorem shiftUpR_eq (v : Nat) (t : Int32) : shiftUpR v t = moveTime (offsetOf v) t := by
  unfold shiftUpR offsetOf
  by_cases h : 3 ≤ v ∧ v ≤ 4
  · rw [if_pos h, if_pos (by omega)]
    unfold moveTime
    apply Int32.toInt_inj.1
    rw [Int32.toInt_add, Int32.toInt_ofInt]
    rfl
  · rw [if_neg h, if_neg (by omega), moveTime_zero]

theorem timeToStrR_eq (v : Nat) (t : Int32) : timeToStrR v t = i32ToStr (moveTime (-offsetOf v) t) := by
  unfold timeToStrR offsetOf
  by_cases h : 3 ≤ v ∧ v ≤ 4
  · rw [if_pos h, if_pos (by omega)]
    congr 1
    unfold moveTime
    apply Int32.toInt_inj.1
    rw [Int32.toInt_sub, Int32.toInt_ofInt]
    rfl
  · rw [if_neg h, if_neg (by omega)]
    rw [show (-(0 : Int)) = 0 from rfl, moveTime_zero]

theorem shiftUp_agrees {v : Nat} {t u : Int32} (h : shiftUp v t = some u) : shiftUpR v t = u := by
  unfold shiftUp at h
  unfold shiftUpR
  by_cases hv : 3 ≤ v ∧ v ≤ 4
  · rw [if_pos hv] at h ⊢
    split at h
    · exact Option.some.inj h
    · cases h
  · rw [if_neg hv] at h ⊢
    exact Option.some.inj h

theorem timeToStr_agrees {v : Nat} {t : Int32} {s : Str} (h : timeToStr v t = some s) : timeToStrR v t = s := by
  unfold timeToStr at h
  unfold timeToStrR
  by_cases hv : 3 ≤ v ∧ v ≤ 4
  · rw [if_pos hv] at h ⊢
    split at h
    · exact Option.some.inj h
    · cases h
  · rw [if_neg hv] at h ⊢
    exact Option.some.inj h

theorem shiftUp_five (t : Int32) : shiftUp 5 t = some t := rfl

/-! ### Parsers -/

section
variable {γ α β δ : Type}

theorem map_bind' (p : Parser γ α) (f : α → β) (k : β → Parser γ δ) : (p.map f).bind k = p.bind fun a => k (f a) := by
  funext s
  simp only [Parser.map, Parser.bind]
  cases p s <;> rfl

theorem context_map (c : γ) (p : Parser γ α) (f : α → β) : context c (p.map f) = (context c p).map f := by
  funext s
  simp only [Parser.map, context]
  cases p s <;> rfl

theorem preceded_map (p : Parser γ δ) (q : Parser γ α) (f : α → β) : preceded p (q.map f) = (preceded p q).map f := by
  funext s
  simp only [Parser.map, preceded, Parser.bind]
  cases p s <;> rfl

theorem mapP_some (p : Parser γ α) (f : α → β) : p.mapP (fun a => some (f a)) = p.map f := rfl

theorem bind_ret_map (p : Parser γ α) (f : α → β) : p.bind (fun a => ret (f a)) = p.map f := by
  funext s
  simp only [Parser.map, Parser.bind, ret]

theorem bind_map' (p : Parser γ α) (k : α → Parser γ β) (f : β → δ) : (p.bind k).map f = p.bind fun a => (k a).map f := by
  funext s
  simp only [Parser.map, Parser.bind]
  cases p s <;> rfl

theorem ret_map' (a : α) (f : α → β) : (ret a : Parser γ α).map f = ret (f a) := rfl

/-- `q` does what `p` does wherever `p` does not panic. -/
def AgreesP (p q : Parser γ α) : Prop := ∀ s, p s = .panic ∨ q s = p s

theorem AgreesP.refl (p : Parser γ α) : AgreesP p p := fun _ => .inr rfl

theorem AgreesP.bind {p q : Parser γ α} {f g : α → Parser γ β} (h : AgreesP p q) (hf : ∀ a, AgreesP (f a) (g a)) :
    AgreesP (p.bind f) (q.bind g) := by
  intro s
  simp only [Parser.bind]
  rcases h s with h | h
  · rw [h]; exact .inl rfl
  · rw [h]
    cases p s with
    | ok r a => exact hf a r
    | error e => exact .inr rfl
    | failure e => exact .inr rfl
    | panic => exact .inl rfl

theorem AgreesP.context {p q : Parser γ α} (c : γ) (h : AgreesP p q) : AgreesP (context c p) (context c q) := by
  intro s
  simp only [Parser.context]
  rcases h s with h | h
  · rw [h]; exact .inl rfl
  · rw [h]; exact .inr rfl

theorem AgreesP.mapP (p : Parser γ α) {f : α → Option β} {g : α → β} (h : ∀ a b, f a = some b → g a = b) :
    AgreesP (p.mapP f) (p.map g) := by
  intro s
  simp only [Parser.mapP, Parser.map]
  cases p s with
  | ok r a =>
    cases hf : f a with
    | none => exact .inl (by simp only [hf])
    | some b => exact .inr (by simp only [hf, h a b hf])
  | error e => exact .inr rfl
  | failure e => exact .inr rfl
  | panic => exact .inl rfl

theorem AgreesP.preceded {p : Parser γ δ} {q q' : Parser γ α} (h : AgreesP q q') : AgreesP (preceded p q) (preceded p q') :=
  (AgreesP.refl p).bind fun _ => h

end

/-- `b` is what `a` is, wherever `a` is not a panic. -/
def AgreesR {ε α : Type} (a b : Res ε α) : Prop := a = .panic ∨ b = a

theorem AgreesP.toRes {γ α : Type} {p q : Parser γ α} (h : AgreesP p q) (s : Str) : AgreesR (p s).toRes (q s).toRes := by
  rcases h s with h | h
  · rw [h]; exact .inl rfl
  · rw [h]; exact .inr rfl

theorem AgreesR.mapEv {ε δ α β : Type} {a b : Res ε α} (f : α → β) (g : ε → δ) (h : AgreesR a b) : AgreesR (mapEv f g a) (mapEv f g b) := by
  rcases h with h | h
  · rw [h]; exact .inl rfl
  · rw [h]; exact .inr rfl

theorem startTime_agrees (v : Nat) : AgreesP (startTimeOffset v) (startTimeOffsetR v) :=
  .context _ (.mapP _ fun _ _ => shiftUp_agrees)

theorem endTime_agrees (v : Nat) : AgreesP (endTimeOffset v) (endTimeOffsetR v) :=
  .context _ (.mapP _ fun _ _ => shiftUp_agrees)

theorem startTime_moved (v : Nat) : startTimeOffsetR v = (startTimeOffset 5).map (moveTime (offsetOf v)) := by
  unfold startTimeOffsetR startTimeOffset
  rw [show shiftUpR v = moveTime (offsetOf v) from funext (shiftUpR_eq v), context_map]
  congr 2
  funext s
  simp only [mapP, shiftUp_five]
  cases (commaFieldType parseI32 : Parser NEErr Int32) s <;> rfl

theorem endTime_moved (v : Nat) : endTimeOffsetR v = (endTimeOffset 5).map (moveTime (offsetOf v)) := by
  unfold endTimeOffsetR endTimeOffset
  rw [show shiftUpR v = moveTime (offsetOf v) from funext (shiftUpR_eq v), context_map]
  congr 2
  funext s
  simp only [mapP, shiftUp_five]
  cases (restType parseI32 : Parser NEErr Int32) s <;> rfl

section
variable {D : Type} [DecLib D]

theorem Break.agrees (v : Nat) (s : Str) : AgreesR (Break.parse v s) (Break.parseR v s) :=
  AgreesP.toRes ((AgreesP.refl _).bind fun _ => (AgreesP.preceded (startTime_agrees v)).bind fun _ =>
    (AgreesP.preceded (endTime_agrees v)).bind fun _ => .refl _) s

theorem ColourTransformation.agrees (v : Nat) (s : Str) : AgreesR (ColourTransformation.parse v s) (ColourTransformation.parseR v s) :=
  AgreesP.toRes ((AgreesP.preceded (startTime_agrees v)).bind fun _ => .refl _) s

theorem Video.agrees (v : Nat) (s : Str) : AgreesR (Video.parse v s : Res _ (Video D)) (Video.parseR v s) :=
  AgreesP.toRes ((AgreesP.refl _).bind fun _ => (AgreesP.preceded (startTime_agrees v)).bind fun _ => .refl _) s

theorem parseEvent_agrees (v : Nat) (l : Str) : AgreesR (parseEvent v l : Res EvErr (Event D)) (parseEventR v l) := by
  unfold parseEventR
  cases hk : kindOf l with
  | none => exact .inr rfl
  | some k =>
    cases k
    case video => simp only [parseEvent, hk]; exact (Video.agrees v l).mapEv _ _
    case break_ => simp only [parseEvent, hk]; exact (Break.agrees v l).mapEv _ _
    case colourTransformation => simp only [parseEvent, hk]; exact (ColourTransformation.agrees v l).mapEv _ _
    all_goals exact .inr rfl

theorem toRes_map {γ α β : Type} (p : Parser γ α) (f : α → β) (s : Str) : ((p.map f) s).toRes = mapEv f id (p s).toRes := by
  simp only [Parser.map]
  cases p s with
  | ok r a => rfl
  | error e => simp only [PRes.toRes, mapEv]; split <;> rfl
  | failure e => simp only [PRes.toRes, mapEv]; split <;> rfl
  | panic => rfl

theorem Break.moved (v : Nat) (s : Str) : Break.parseR v s =
    mapEv (fun x => { x with startTime := moveTime (offsetOf v) x.startTime, endTime := moveTime (offsetOf v) x.endTime }) id (Break.parse 5 s) := by
  unfold Break.parse
  rw [← toRes_map]
  unfold Break.parseR
  simp only [startTime_moved, endTime_moved, preceded_map, map_bind', bind_map', ret_map']

theorem ColourTransformation.moved (v : Nat) (s : Str) : ColourTransformation.parseR v s =
    mapEv (fun x => { x with startTime := moveTime (offsetOf v) x.startTime }) id (ColourTransformation.parse 5 s) := by
  unfold ColourTransformation.parse
  rw [← toRes_map]
  unfold ColourTransformation.parseR
  simp only [startTime_moved, preceded_map, map_bind', bind_map', ret_map']

theorem Video.moved (v : Nat) (s : Str) : (Video.parseR v s : Res _ (Video D)) =
    mapEv (fun x => { x with startTime := moveTime (offsetOf v) x.startTime }) id (Video.parse 5 s) := by
  unfold Video.parse
  rw [← toRes_map]
  unfold Video.parseR
  simp only [startTime_moved, preceded_map, map_bind', bind_map', ret_map']

/-- The events that are not moved. -/
theorem parseEvent_moved (v : Nat) (l : Str) : (parseEventR v l : Res EvErr (Event D)) =
    mapEv (moveEvent (offsetOf v)) id (parseEvent 5 l) := by
  unfold parseEventR
  cases hk : kindOf l with
  | none => simp only [parseEvent, hk]; rfl
  | some k =>
    have keep : ∀ {ε α : Type} (r : Res ε α) (f : α → Event D) (g : ε → EvErr), (∀ a, moveEvent (offsetOf v) (f a) = f a) →
        mapEv f g r = mapEv (moveEvent (offsetOf v)) id (mapEv f g r) := by
      intro ε α r f g h
      cases r with
      | ok a => simp only [mapEv, h]
      | err e => rfl
      | panic => rfl
    cases k
    case video =>
      simp only [parseEvent, hk, Video.moved]
      cases (Video.parse 5 l : Res NEErr (Video D)) <;> rfl
    case break_ =>
      simp only [parseEvent, hk, Break.moved]
      cases Break.parse 5 l <;> rfl
    case colourTransformation =>
      simp only [parseEvent, hk, ColourTransformation.moved]
      cases ColourTransformation.parse 5 l <;> rfl
    case other =>
      simp only [parseEvent, hk]
      unfold parseOther
      cases (Object.parse l : Res ObjErr (Object D)) with
      | ok o => rfl
      | panic => rfl
      | err e =>
        cases e <;> try rfl
        cases AudioSample.parse l with
        | ok a => rfl
        | panic => rfl
        | err e => cases e <;> rfl
    all_goals
      simp only [parseEvent, hk]
      exact keep _ _ _ fun _ => rfl

end

/-! ### The section -/

section
variable {D : Type} [DecLib D] [UniLib]

theorem step_agrees (v : Nat) (vars : List Variable) (evs : List (Event D)) (l : Str) :
    AgreesR (step v vars evs l) (stepR v vars evs l) := by
  unfold step stepR
  split
  · exact .inr rfl
  · cases stripPrefix c!"//" l with
    | some c => exact .inr rfl
    | none =>
      simp only
      split
      · exact .inr rfl
      · rcases parseEvent_agrees (D := D) v l with h | h
        · rw [h]; exact .inl rfl
        · rw [h]; exact .inr rfl

theorem loop_agrees (v : Nat) (vars : List Variable) (ls : List Str) (n : Nat) (evs : List (Event D)) :
    AgreesR (loop v vars n evs ls) (loopR v vars n evs ls) := by
  induction ls generalizing n evs with
  | nil => exact .inr rfl
  | cons l ls ih =>
    unfold loop loopR
    rcases step_agrees v vars evs l with h | h
    · rw [h]; exact .inl rfl
    · rw [h]
      cases step v vars evs l with
      | ok evs' => exact ih _ _
      | err e => exact .inr rfl
      | panic => exact .inl rfl

theorem events_agree (v : Nat) (s : Str) : AgreesR (Events.parse v s : Res _ (List (Event D))) (Events.parseR v s) :=
  loop_agrees v [] _ 0 []

omit [UniLib] [DecLib D] in
theorem moveEvent_commands (k : Int) (e : Event D) : (moveEvent k e).commands = e.commands := by cases e <;> rfl

omit [UniLib] [DecLib D] in
theorem moveEvent_set (k : Int) (cs : List (Command D)) (e : Event D) :
    (moveEvent k e).setCommands cs = moveEvent k (e.setCommands cs) := by cases e <;> rfl

theorem stepCmd_moved (k : Int) (vars : List Variable) (evs : List (Event D)) (l : Str) (i : Nat) :
    stepCmd vars (evs.map (moveEvent k)) l i = mapEv (List.map (moveEvent k)) id (stepCmd vars evs l i) := by
  unfold stepCmd
  rw [List.getLast?_map]
  cases evs.getLast? with
  | none => rfl
  | some e =>
    simp only [Option.map_some, moveEvent_commands]
    cases e.commands with
    | none => rfl
    | some cs =>
      simp only
      cases (cmdParse vars l : Res EvErr (Command D)) with
      | err e => rfl
      | panic => rfl
      | ok c =>
        simp only
        rcases tryPush cs c i with ⟨cs', r⟩
        cases r with
        | ok _ => simp [mapEv, moveEvent_set, List.map_dropLast]
        | err e => rfl
        | panic => rfl

theorem step_moved (v : Nat) (vars : List Variable) (evs : List (Event D)) (l : Str) :
    stepR v vars (evs.map (moveEvent (offsetOf v))) l =
      mapEv (List.map (moveEvent (offsetOf v))) id (step 5 vars evs l) := by
  unfold step stepR
  split
  · rfl
  · cases stripPrefix c!"//" l with
    | some c => simp [mapEv, moveEvent]
    | none =>
      simp only
      split
      · exact stepCmd_moved _ _ _ _ _
      · rw [parseEvent_moved]
        cases (parseEvent 5 l : Res EvErr (Event D)) with
        | ok e => simp [mapEv]
        | err e => rfl
        | panic => rfl

theorem loop_moved (v : Nat) (vars : List Variable) (ls : List Str) (n : Nat) (evs : List (Event D)) :
    loopR v vars n (evs.map (moveEvent (offsetOf v))) ls =
      mapEv (List.map (moveEvent (offsetOf v))) id (loop 5 vars n evs ls) := by
  induction ls generalizing n evs with
  | nil => rfl
  | cons l ls ih =>
    unfold loop loopR
    rw [step_moved]
    cases step 5 vars evs l with
    | ok evs' => exact ih _ _
    | err e => rfl
    | panic => rfl

theorem events_moved (v : Nat) (s : Str) : (Events.parseR v s : Res _ (List (Event D))) =
    mapEv (List.map (moveEvent (offsetOf v))) id (Events.parse 5 s) :=
  loop_moved v [] _ 0 []

/-! ### The file -/

theorem handle_agrees (v : Nat) (f : OsuFile D) (name body : Str) (line : Nat) :
    (OsuFile.handle v f name body line = none ∧ OsuFile.handleR v f name body line = none) ∨
      ∃ a b, OsuFile.handle v f name body line = some a ∧ OsuFile.handleR v f name body line = some b ∧ AgreesR a b := by
  unfold OsuFile.handleR
  by_cases h : name = c!"Events"
  · right
    rw [if_pos h]
    subst h
    refine ⟨_, _, rfl, rfl, ?_⟩
    rcases events_agree (D := D) v body with h | h
    · rw [h]; exact .inl rfl
    · rw [h]; exact .inr rfl
  · rw [if_neg h]
    cases hh : OsuFile.handle v f name body line with
    | none => exact .inl ⟨rfl, rfl⟩
    | some a => exact .inr ⟨a, a, rfl, rfl, .inr rfl⟩

/-- The loop of `OsuFile::from_str` without overflow checks. -/
abbrev fileLoopR (v : Nat) (xs : List Sect) (line : Nat) (seen : List Str) (st : OsuFile D) : Res (LErr FileErr) (OsuFile D) :=
  sectionLoop .duplicateSections .unknownSection (OsuFile.handleR v) (fun line n => some (line + n - 1)) xs line seen st

theorem fileLoop_agrees (v : Nat) (xs : List Sect) (line : Nat) (seen : List Str) (st : OsuFile D) :
    AgreesR (fileLoop v xs line seen st) (fileLoopR v xs line seen st) := by
  induction xs generalizing line seen st with
  | nil => exact .inr rfl
  | cons x xs ih =>
    simp only [fileLoop, fileLoopR, sectionLoop]
    split
    · exact .inr rfl
    · rcases handle_agrees v st x.name x.body (line + (lines x.ws).length + (lines x.ws2).length) with ⟨h1, h2⟩ | ⟨a, b, h1, h2, h⟩
      · rw [h1, h2]; exact .inr rfl
      · rw [h1, h2]
        rcases h with rfl | rfl
        · exact .inl rfl
        · cases b with
          | err e => exact .inr rfl
          | panic => exact .inl rfl
          | ok st' =>
            simp only
            by_cases hn : (lines x.body).length = 0
            · rw [if_pos hn]; exact .inl rfl
            · rw [if_neg hn, Nat.add_sub_assoc (by omega)]
              exact ih _ _ _

theorem parseRest_agrees (v : Nat) (ws s : Str) : AgreesR (OsuFile.parseRest v ws s : Res _ (OsuFile D)) (OsuFile.parseRestR v ws s) := by
  unfold OsuFile.parseRest OsuFile.parseRestR
  cases preBad 0 ((lines s).take (preCount s)) with
  | some i => exact .inr rfl
  | none =>
    simp only
    cases Parser.many0 squareSection (sectionText s) with
    | ok r xs => exact fileLoop_agrees _ _ _ _ _
    | error e => exact .inr rfl
    | failure e => exact .inr rfl
    | panic => exact .inr rfl

theorem parse_shape (s : Str) : (∃ v ws r, (OsuFile.parse s : Res _ (OsuFile D)) = OsuFile.parseRest v ws r ∧
    (OsuFile.parseR s : Res _ (OsuFile D)) = OsuFile.parseRestR v ws r) ∨
      (OsuFile.parseR s : Res _ (OsuFile D)) = OsuFile.parse s := by
  unfold OsuFile.parse OsuFile.parseR
  generalize versionP s = r
  split
  · exact .inr rfl
  · exact .inr rfl
  · rename_i r' ws version
    by_cases h : ¬ (3 ≤ version.toNat ∧ version.toNat ≤ 14)
    · simp only [if_pos h]; exact .inr trivial
    · simp only [if_neg h]; exact .inl ⟨_, _, _, rfl, rfl⟩
  · rename_i h1 h2 h3
    right
    split
    · exact absurd rfl (h1 _ _)
    · exact absurd rfl (h2 _ _)
    · exact absurd rfl (h3 _ _ _)
    · rfl

theorem parse_agrees (s : Str) : AgreesR (OsuFile.parse s : Res _ (OsuFile D)) (OsuFile.parseR s) := by
  rcases parse_shape (D := D) s with ⟨v, ws, r, h1, h2⟩ | h
  · rw [h1, h2]; exact parseRest_agrees v ws r
  · exact .inr h

/-! ### What release reads -/

theorem outcomeR_other {v : Nat} {body : Str} {n : SName} (h : n ≠ .events) : n.outcomeR D v body = n.outcome D v body := by
  unfold SName.outcomeR; rw [if_neg h]

theorem outcomeR_events (v : Nat) (body : Str) : SName.outcomeR D v body .events = SName.outcome D 5 body .events := rfl

theorem sectReadsR_other {v : Nat} {f : OsuFile D} {body : Str} {n : SName} (h : n ≠ .events) :
    SectReadsR v f body n ↔ SectReads v f body n := by
  cases n <;> first | exact Iff.rfl | exact absurd rfl h

theorem handleR_none {v : Nat} {f : OsuFile D} {name body : Str} {line : Nat} :
    OsuFile.handleR v f name body line = none ↔ ∀ n : SName, n.text ≠ name := by
  unfold OsuFile.handleR
  by_cases h : name = c!"Events"
  · rw [if_pos h]
    simp only [reduceCtorEq, false_iff]
    intro hn
    exact hn .events h.symm
  · rw [if_neg h, handle_none]

theorem handleR_name (v : Nat) (f : OsuFile D) (n : SName) (body : Str) (line : Nat) :
    ∃ r, OsuFile.handleR v f n.text body line = some r ∧
      (∀ f', r = .ok f' ↔ SectReadsR v f' body n ∧ (∀ m, m ≠ n → SameField f' f m) ∧ f'.version = f.version ∧ f'.osb = f.osb) ∧
      (∀ e, r = .err e ↔ ∃ e', n.outcomeR D v body = .err e' ∧ e = ⟨e'.line + line, e'.error⟩) ∧
      (r = .panic ↔ n.outcomeR D v body = .panic) := by
  by_cases hn : n = .events
  · subst hn
    refine ⟨_, rfl, ?_, ?_, ?_⟩
    · intro f'
      refine processingLine_ok.trans ?_
      rw [events_moved]
      constructor
      · rintro ⟨a, h, e⟩
        cases hp : (Events.parse 5 body : Res _ (List (Event D))) with
        | err e => rw [hp] at h; cases h
        | panic => rw [hp] at h; cases h
        | ok x =>
          rw [hp] at h
          cases h
          cases e
          refine ⟨⟨x, hp, rfl⟩, ?_, rfl, rfl⟩
          intro m hm
          cases m <;> first | rfl | exact absurd rfl hm
      · rintro ⟨⟨x, h, e⟩, hm, e1, e2⟩
        refine ⟨x.map (moveEvent (offsetOf v)), by rw [h]; rfl, ?_⟩
        refine OsuFile.ext_fields (fun m => ?_) e1.symm e2.symm
        by_cases h' : m = .events
        · subst h'; exact e.symm
        · refine SameField.trans ?_ (hm m h').symm
          cases m <;> first | rfl | exact absurd rfl h'
    · intro e
      refine processingLine_err.trans ?_
      rw [outcomeR_events, events_moved]
      unfold SName.outcome
      cases (Events.parse 5 body : Res _ (List (Event D))) <;> exact Iff.rfl
    · refine processingLine_panic.trans ?_
      rw [outcomeR_events, events_moved]
      unfold SName.outcome
      cases (Events.parse 5 body : Res _ (List (Event D))) <;> exact Iff.rfl
  · rw [outcomeR_other hn]
    simp only [sectReadsR_other hn]
    have : OsuFile.handleR v f n.text body line = OsuFile.handle v f n.text body line := by
      unfold OsuFile.handleR
      rw [if_neg]
      intro h
      exact hn (SName.text_inj (m := .events) h)
    rw [this]
    exact handle_name v f n body line

theorem SectReadsR.same {v : Nat} {f g : OsuFile D} {body : Str} {n : SName} (h : SectReadsR v f body n) (hs : SameField g f n) :
    SectReadsR v g body n := by
  by_cases hn : n = .events
  · subst hn
    obtain ⟨x, h1, h2⟩ := h
    exact ⟨x, h1, Eq.trans hs h2⟩
  · rw [sectReadsR_other hn] at h ⊢
    exact h.same hs

theorem SectReadsR.unique {v : Nat} {f g : OsuFile D} {body : Str} {n : SName} (h : SectReadsR v f body n) (h' : SectReadsR v g body n) :
    SameField f g n := by
  by_cases hn : n = .events
  · subst hn
    obtain ⟨x, h1, h2⟩ := h
    obtain ⟨y, h3, h4⟩ := h'
    rw [h1] at h3
    cases h3
    exact Eq.trans h2 h4.symm
  · rw [sectReadsR_other hn] at h h'
    exact h.unique h'

/-- The same loop with a count that stays where it is at an empty content. -/
abbrev fileLoopS (v : Nat) (xs : List Sect) (line : Nat) (seen : List Str) (st : OsuFile D) : Res (LErr FileErr) (OsuFile D) :=
  sectionLoop .duplicateSections .unknownSection (OsuFile.handleR v) (fun line n => some (line + (n - 1))) xs line seen st

theorem sections_last {s r : Str} {x y : Sect} {xs : List Sect} (h : Sections s (x :: y :: xs) r) : x.body ≠ [] := by
  intro hb
  cases h with
  | cons hw hn hw2 hh he h' =>
    rw [hb] at hh
    rcases he.1 with rfl | ⟨r', rfl⟩
    · generalize hs : ([] : Str) = s' at h'
      cases h' with
      | cons => simp at hs
    · exact absurd (show isMultispace '\n' = true by decide) (by simpa [HeadNot] using hh)

theorem fileLoopR_eq (v : Nat) {xs : List Sect} {s r : Str} (hs : Sections s xs r) (line : Nat) (seen : List Str) (st : OsuFile D) :
    fileLoopR v xs line seen st = fileLoopS v xs line seen st := by
  induction xs generalizing s r line seen st with
  | nil => rfl
  | cons x xs ih =>
    simp only [fileLoopR, fileLoopS, sectionLoop]
    split
    · rfl
    · split
      · rfl
      · rfl
      · rfl
      · cases xs with
        | nil => rfl
        | cons y ys =>
          have hne : (lines x.body).length ≠ 0 := fun h => sections_last hs (lines_len_zero.1 h)
          rw [Nat.add_sub_assoc (by omega)]
          cases hs with
          | cons _ _ _ _ _ h' => exact ih h' _ _ _

theorem fileLoopR_ok {v : Nat} {xs : List Sect} {line : Nat} {seen : List Str} {st f : OsuFile D} :
    fileLoopS v xs line seen st = .ok f ↔ f.version = st.version ∧ f.osb = st.osb ∧ (xs.map Sect.name).Nodup ∧
      (∀ x ∈ xs, x.name ∉ seen) ∧
      (∀ x ∈ xs, ∃ n : SName, n.text = x.name ∧ SectReadsR v f x.body n) ∧
      ∀ n : SName, n.text ∉ xs.map Sect.name → SameField f st n := by
  induction xs generalizing line seen st with
  | nil =>
    rw [fileLoopS, sectionLoop]
    constructor
    · intro h; cases h; simp [SameField.refl]
    · rintro ⟨h1, h2, -, -, -, h3⟩
      rw [OsuFile.ext_fields (fun n => (h3 n (by simp)).symm) h1.symm h2.symm]
  | cons x xs ih =>
    rw [fileLoopS, sectionLoop]
    by_cases hx : x.name ∈ seen
    · simp only [if_pos hx, reduceCtorEq, false_iff]
      rintro ⟨-, -, -, h, -⟩
      exact h x (by simp) hx
    · simp only [if_neg hx]
      by_cases hn : ∃ n : SName, n.text = x.name
      · obtain ⟨n, hn⟩ := hn
        rw [← hn]
        obtain ⟨r, h0, h1, h2, h3⟩ := handleR_name v st n x.body (line + (lines x.ws).length + (lines x.ws2).length)
        rw [h0]
        have hnofail : (∀ f', r ≠ .ok f') → ¬ ∃ f : OsuFile D, SectReadsR v f x.body n := by
          rintro hr ⟨g, hg⟩
          obtain ⟨st', a1, a2, a3, a4⟩ := setField g st n
          exact hr st' ((h1 st').2 ⟨hg.same a1, a2, a3, a4⟩)
        have key : ∀ (P Q : Prop), (¬ ∃ f : OsuFile D, SectReadsR v f x.body n) →
            ¬ (∀ y ∈ x :: xs, ∃ n : SName, n.text = y.name ∧ SectReadsR v f y.body n) := by
          intro P Q hno hall
          obtain ⟨m, hm, hr⟩ := hall x (by simp)
          rw [← hn] at hm
          rw [SName.text_inj hm] at hr
          exact hno ⟨f, hr⟩
        cases r with
        | err e =>
          simp only [reduceCtorEq, false_iff]
          rintro ⟨-, -, -, -, h, -⟩
          exact key True True (hnofail (by simp)) h
        | panic =>
          simp only [reduceCtorEq, false_iff]
          rintro ⟨-, -, -, -, h, -⟩
          exact key True True (hnofail (by simp)) h
        | ok st' =>
          obtain ⟨b1, b2, b3, b4⟩ := (h1 st').1 rfl
          simp only
          refine ih.trans ?_
          constructor
          · rintro ⟨c1, c2, c3, c4, c5, c6⟩
            have hnot : x.name ∉ xs.map Sect.name := by
              intro hm
              obtain ⟨y, hy, e⟩ := List.mem_map.1 hm
              exact c4 y hy (by simp [e, hn])
            refine ⟨c1.trans b3, c2.trans b4, List.nodup_cons.2 ⟨hnot, c3⟩, ?_, ?_, ?_⟩
            · intro y hy
              rcases List.mem_cons.1 hy with rfl | hy
              · exact hx
              · intro hm; exact c4 y hy (by simp [hm])
            · intro y hy
              rcases List.mem_cons.1 hy with rfl | hy
              · exact ⟨n, hn, b1.same (c6 n (by rwa [hn]))⟩
              · exact c5 y hy
            · intro m hm
              simp only [List.map_cons, List.mem_cons, not_or] at hm
              exact (c6 m hm.2).trans (b2 m (fun e => hm.1 (by rw [e, hn])))
          · rintro ⟨c1, c2, c3, c4, c5, c6⟩
            obtain ⟨hnot, c3⟩ := List.nodup_cons.1 c3
            refine ⟨c1.trans b3.symm, c2.trans b4.symm, c3, ?_, fun y hy => c5 y (by simp [hy]), ?_⟩
            · intro y hy hm
              rcases List.mem_append.1 hm with hm | hm
              · exact c4 y (by simp [hy]) hm
              · rw [List.mem_singleton, hn] at hm
                exact hnot (hm ▸ List.mem_map_of_mem hy)
            · intro m hm
              by_cases hmn : m = n
              · subst hmn
                obtain ⟨k, hk, hr⟩ := c5 x (by simp)
                rw [← hn] at hk
                rw [SName.text_inj hk] at hr
                exact hr.unique b1
              · refine (c6 m ?_).trans (b2 m hmn).symm
                simp only [List.map_cons, List.mem_cons, not_or]
                exact ⟨fun e => hmn (SName.text_inj (e.trans hn.symm)), hm⟩
      · have h0 : OsuFile.handleR v st x.name x.body (line + (lines x.ws).length + (lines x.ws2).length) = none :=
          handleR_none.2 fun n e => hn ⟨n, e⟩
        rw [h0]
        simp only [reduceCtorEq, false_iff]
        rintro ⟨-, -, -, -, h, -⟩
        obtain ⟨m, hm, -⟩ := h x (by simp)
        exact hn ⟨m, hm⟩

theorem allReadR_nil (v : Nat) : AllReadR D v [] := ⟨.nil, fun _ h => by cases h⟩

theorem allReadR_cons {v : Nat} {x : Sect} {xs : List Sect} : AllReadR D v (x :: xs) ↔
    x.name ∉ xs.map Sect.name ∧ (∃ n : SName, n.text = x.name ∧ n.outcomeR D v x.body = .ok ()) ∧ AllReadR D v xs := by
  unfold AllReadR
  simp only [List.map_cons, List.nodup_cons, List.mem_cons, forall_eq_or_imp]
  constructor
  · rintro ⟨⟨a, b⟩, c, d⟩; exact ⟨a, c, b, d⟩
  · rintro ⟨a, c, b, d⟩; exact ⟨⟨a, b⟩, c, d⟩

theorem sectReadsR_outcome {v : Nat} {body : Str} {n : SName} :
    (∃ f : OsuFile D, SectReadsR v f body n) ↔ n.outcomeR D v body = .ok () := by
  by_cases hn : n = .events
  · subst hn
    rw [outcomeR_events, ← sectReads_outcome]
    constructor
    · rintro ⟨f, x, h, -⟩
      exact ⟨{ f with events := some x }, x, h, rfl⟩
    · rintro ⟨f, x, h, -⟩
      exact ⟨{ f with events := some (x.map (moveEvent (offsetOf v))) }, x, h, rfl⟩
  · rw [outcomeR_other hn, ← sectReads_outcome]
    simp only [sectReadsR_other hn]

theorem fileLoopR_stops {v : Nat} {xs : List Sect} {line : Nat} {seen : List Str} {st : OsuFile D}
    {o : Res (LErr FileErr) (OsuFile D)} (ho : o.isOk = false) :
    fileLoopS v xs line seen st = o ↔ ∃ pre x post, xs = pre ++ x :: post ∧ AllReadR D v pre ∧ (∀ y ∈ pre, y.name ∉ seen) ∧
      StopsAtR D v (nameLine line pre x) (bodyLine line pre x) (seen ++ pre.map Sect.name) x o := by
  induction xs generalizing line seen st with
  | nil =>
    rw [fileLoopS, sectionLoop]
    constructor
    · intro h; rw [← h] at ho; cases ho
    · rintro ⟨pre, x, post, h, -⟩; simp at h
  | cons x xs ih =>
    rw [fileLoopS, sectionLoop]
    -- the loop either stops here or goes on
    have split : ∀ (P : List Sect → Sect → Prop), (∃ pre y post, x :: xs = pre ++ y :: post ∧ P pre y) ↔
        P [] x ∨ ∃ pre y post, xs = pre ++ y :: post ∧ P (x :: pre) y := by
      intro P
      constructor
      · rintro ⟨pre, y, post, e, h⟩
        cases pre with
        | nil => simp only [List.nil_append, List.cons.injEq] at e; obtain ⟨rfl, rfl⟩ := e; exact .inl h
        | cons z pre =>
          simp only [List.cons_append, List.cons.injEq] at e
          obtain ⟨rfl, rfl⟩ := e
          exact .inr ⟨pre, y, post, rfl, h⟩
      · rintro (h | ⟨pre, y, post, e, h⟩)
        · exact ⟨[], x, xs, rfl, h⟩
        · exact ⟨x :: pre, y, post, by rw [e]; rfl, h⟩
    rw [split]
    simp only [allReadR_nil, allReadR_cons, List.not_mem_nil, false_implies, implies_true, true_and, List.map_nil, List.append_nil,
      List.map_cons, nameLine_cons, bodyLine_cons, List.mem_cons, forall_eq_or_imp]
    have hnl : nameLine line [] x = line + (lines x.ws).length := by simp [nameLine]
    have hbl : bodyLine line [] x = line + (lines x.ws).length + (lines x.ws2).length := by simp [bodyLine, nameLine]
    rw [hnl, hbl]
    by_cases hx : x.name ∈ seen
    · simp only [if_pos hx]
      constructor
      · intro h; exact .inl (.inl ⟨hx, h.symm⟩)
      · rintro (h | ⟨pre, y, post, -, -, ⟨h, -⟩, -⟩)
        · rcases h with ⟨-, h⟩ | ⟨h, -⟩ | ⟨h, -⟩
          · exact h.symm
          · exact absurd hx h
          · exact absurd hx h
        · exact absurd hx h
    · simp only [if_neg hx]
      by_cases hn : ∃ n : SName, n.text = x.name
      · obtain ⟨n, hn⟩ := hn
        have hout : ∀ {r}, (∃ m : SName, m.text = x.name ∧ m.outcomeR D v x.body = r) → n.outcomeR D v x.body = r := by
          rintro r ⟨m, hm, hr⟩
          rw [← hn] at hm
          rwa [SName.text_inj hm] at hr
        conv => lhs; rw [← hn]
        obtain ⟨r, h0, h1, h2, h3⟩ := handleR_name v st n x.body (line + (lines x.ws).length + (lines x.ws2).length)
        rw [h0]
        cases r with
        | err e =>
          obtain ⟨e', he, rfl⟩ := (h2 e).1 rfl
          simp only
          constructor
          · intro h; exact .inl (.inr (.inr ⟨hx, n, hn, .inl ⟨e', he, h.symm⟩⟩))
          · rintro (h | ⟨pre, y, post, -, ⟨-, h, -⟩, -⟩)
            · rcases h with ⟨h, -⟩ | ⟨-, h, -⟩ | ⟨-, m, hm, h⟩
              · exact absurd h hx
              · exact absurd hn (h n)
              · rw [← hn] at hm
                rw [SName.text_inj hm, he] at h
                rcases h with ⟨e2, h, rfl⟩ | ⟨h, -⟩
                · cases h; rfl
                · cases h
            · rw [hout h] at he; cases he
        | panic =>
          have hp := h3.1 rfl
          simp only
          constructor
          · intro h; exact .inl (.inr (.inr ⟨hx, n, hn, .inr ⟨hp, h.symm⟩⟩))
          · rintro (h | ⟨pre, y, post, -, ⟨-, h, -⟩, -⟩)
            · rcases h with ⟨h, -⟩ | ⟨-, h, -⟩ | ⟨-, m, hm, h⟩
              · exact absurd h hx
              · exact absurd hn (h n)
              · rw [← hn] at hm
                rw [SName.text_inj hm, hp] at h
                rcases h with ⟨e2, h, rfl⟩ | ⟨-, rfl⟩
                · cases h
                · rfl
            · rw [hout h] at hp; cases hp
        | ok st' =>
          have hok : n.outcomeR D v x.body = .ok () := sectReadsR_outcome.1 ⟨st', ((h1 st').1 rfl).1⟩
          simp only
          refine ih.trans ?_
          have hc : line + (lines x.ws).length + (lines x.ws2).length + ((lines x.body).length - 1) = line + x.counted := by
            unfold Sect.counted; omega
          rw [hc, hn]
          constructor
          · rintro ⟨pre, y, post, e, a1, a2, a3⟩
            right
            refine ⟨pre, y, post, e, ⟨?_, ⟨n, hn, hok⟩, a1⟩, ⟨hx, fun z hz hm => a2 z hz (by simp [hm])⟩, ?_⟩
            · intro hm
              obtain ⟨z, hz, e⟩ := List.mem_map.1 hm
              exact a2 z hz (by simp [e])
            · simpa using a3
          · rintro (h | ⟨pre, y, post, e, ⟨b1, -, a1⟩, ⟨-, a2⟩, a3⟩)
            · rcases h with ⟨h, -⟩ | ⟨-, h, -⟩ | ⟨-, m, hm, h⟩
              · exact absurd h hx
              · exact absurd hn (h n)
              · rw [← hn] at hm
                rw [SName.text_inj hm, hok] at h
                rcases h with ⟨e2, h, rfl⟩ | ⟨h, -⟩
                · cases h
                · cases h
            · refine ⟨pre, y, post, e, a1, ?_, by simpa using a3⟩
              intro z hz hm
              rcases List.mem_append.1 hm with hm | hm
              · exact a2 z hz hm
              · rw [List.mem_singleton] at hm
                exact b1 (hm ▸ List.mem_map_of_mem hz)
      · have h0 : OsuFile.handleR v st x.name x.body (line + (lines x.ws).length + (lines x.ws2).length) = none :=
          handleR_none.2 fun n e => hn ⟨n, e⟩
        rw [h0]
        simp only
        constructor
        · intro h; exact .inl (.inr (.inl ⟨hx, fun n e => hn ⟨n, e⟩, h.symm⟩))
        · rintro (h | ⟨pre, y, post, -, ⟨-, ⟨m, hm, -⟩, -⟩, -⟩)
          · rcases h with ⟨h, -⟩ | ⟨-, -, h⟩ | ⟨-, m, hm, -⟩
            · exact absurd h hx
            · exact h.symm
            · exact absurd ⟨m, hm⟩ hn
          · exact absurd ⟨m, hm⟩ hn

theorem parseRestR_eq {v : Nat} {ws s : Str} {pre : List Str} {xs : List Sect} {rest : Str} (h : Layout s pre xs rest)
    (hp : ∀ l ∈ pre, Ignorable l) : (OsuFile.parseRestR v ws s : Res (LErr FileErr) (OsuFile D)) =
      fileLoopS v xs ((lines ws).length + pre.length) [] (OsuFile.new v) := by
  unfold OsuFile.parseRestR
  have hc := preCount_layout h
  obtain ⟨h1, h2⟩ := layout_iff.1 h
  rw [← h1, preBad_none.2 hp, sections_iff.2 h2, hc]
  exact fileLoopR_eq v h2 _ _ _

theorem parseRestR_bad {v : Nat} {ws s : Str} {a b : List Str} {l : Str} {xs : List Sect} {rest : Str}
    (h : Layout s (a ++ l :: b) xs rest) (ha : ∀ x ∈ a, Ignorable x) (hl : ¬Ignorable l) :
    (OsuFile.parseRestR v ws s : Res (LErr FileErr) (OsuFile D)) = .err ⟨a.length, .unexpectedLine⟩ := by
  unfold OsuFile.parseRestR
  obtain ⟨h1, h2⟩ := layout_iff.1 h
  rw [← h1, preBad_some.2 ⟨a, l, b, rfl, (Nat.zero_add _).symm, ha, hl⟩]

theorem parseR_versioned {s ws num r : Str} (h : Versioned s ws num r) {v : Nat} (hv : KnownVersion num v) :
    (OsuFile.parseR s : Res (LErr FileErr) (OsuFile D)) = OsuFile.parseRestR v ws r := by
  obtain ⟨s', e⟩ := versionP_eq h
  obtain ⟨u, hu, rfl, h3, h14⟩ := knownVersion_iff.1 hv
  rw [hu] at e
  unfold OsuFile.parseR
  rw [e]
  simp only
  rw [if_neg (fun h => h ⟨h3, h14⟩)]

theorem parseR_badVersion {s ws num r : Str} (h : Versioned s ws num r) (hv : ¬∃ v, KnownVersion num v) :
    (OsuFile.parseR s : Res (LErr FileErr) (OsuFile D)) = .err ⟨0, .invalidFileVersion⟩ := by
  obtain ⟨s', e⟩ := versionP_eq h
  unfold OsuFile.parseR
  rw [e]
  cases hp : parseU8 num with
  | ok u =>
    simp only
    rw [if_pos]
    intro h
    exact hv ⟨_, knownVersion_iff.2 ⟨u, hp, rfl, h⟩⟩
  | err e => rfl
  | panic => exact absurd hp (parseU8_no_panic _)

theorem parseR_unversioned {s : Str} (h : ¬∃ ws num r, Versioned s ws num r) :
    (OsuFile.parseR s : Res (LErr FileErr) (OsuFile D)) = .err ⟨0, .fileVersionDefinedWrong⟩ := by
  obtain ⟨s', e⟩ := versionP_not h
  unfold OsuFile.parseR
  rw [e]

end

end Osu
