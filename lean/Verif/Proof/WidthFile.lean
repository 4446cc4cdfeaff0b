/-
Files read with a smaller `usize`.
-/
import Verif.Model.WidthFile
import Verif.Spec.WidthFile
import Verif.Proof.WidthMore
import Verif.Proof.FileLoop
import Verif.Proof.Release

namespace Osu
open Parser Ev
open SB (Command)

/-! ### Events are read alike -/

theorem mapRes_same {γ ε α β : Type} (p : Parser γ α) {f g : α → Res ε β} (h : ∀ a, SameUpToError (f a) (g a)) :
    mapRes p f = mapRes p g := by
  funext s
  unfold mapRes
  cases p s with
  | ok r a =>
    simp only
    rcases h a with h | ⟨⟨e, h1⟩, e', h2⟩
    · rw [h]
    · rw [h1, h2]
  | error e => rfl
  | failure e => rfl
  | panic => rfl

section
variable {D : Type} [DecLib D]

theorem Ev.SpriteLegacy.parseW_eq {m : Nat} (hm : IsUsizeMax m) (h s : Str) :
    (SpriteLegacy.parseW m h s : Res NEErr (SpriteLegacy D)) = SpriteLegacy.parse h s := by
  unfold SpriteLegacy.parseW SpriteLegacy.parse commaFieldType
  rw [mapRes_same commaField (f := LayerLegacy.parseW m) (g := LayerLegacy.parse) fun a =>
      Ev.parseReprW_same hm Ev.layer_large a,
    mapRes_same commaField (f := OriginLegacy.parseW m) (g := OriginLegacy.parse) fun a =>
      Ev.parseReprW_same hm Ev.origin_large a]

theorem Ev.SampleLegacy.parseW_eq {m : Nat} (hm : IsUsizeMax m) (s : Str) :
    (SampleLegacy.parseW m s : Res NEErr (SampleLegacy D)) = SampleLegacy.parse s := by
  unfold SampleLegacy.parseW SampleLegacy.parse commaFieldType
  rw [mapRes_same commaField (f := LayerLegacy.parseW m) (g := LayerLegacy.parse) fun a =>
    Ev.parseReprW_same hm Ev.layer_large a]

theorem Ev.parseEventW_eq {m : Nat} (hm : IsUsizeMax m) (v : Nat) (s : Str) :
    (parseEventW m v s : Res EvErr (Event D)) = parseEvent v s := by
  unfold parseEventW parseEvent parseOtherW parseOther
  simp only [Ev.SpriteLegacy.parseW_eq hm, Ev.SampleLegacy.parseW_eq hm, Ev.AudioSample.parseW_eq hm]
  rfl

variable [UniLib]

theorem SB.Command.parseW_eq {m : Nat} (hm : IsUsizeMax m) (s : Str) :
    (Command.parseW m s : Res _ (Command D)) = Command.parse s := by
  unfold Command.parseW Command.parse Command.commandPW Command.commandP Command.triggerPW Command.triggerP
  rw [show SB.TriggerType.parseW m = SB.TriggerType.parse from funext (SB.TriggerType.parseW_eq hm)]

theorem Ev.stepCmdW_eq {m : Nat} (hm : IsUsizeMax m) (vars : List Variable) (evs : List (Event D)) (l : Str) (i : Nat) :
    stepCmdW m vars evs l i = stepCmd vars evs l i := by
  unfold stepCmdW stepCmd cmdParseW cmdParse
  simp only [SB.Command.parseW_eq hm]
  rfl

theorem Ev.stepW_eq {m : Nat} (hm : IsUsizeMax m) (v : Nat) (vars : List Variable) (evs : List (Event D)) (l : Str) :
    stepW m v vars evs l = step v vars evs l := by
  unfold stepW step
  simp only [Ev.stepCmdW_eq hm, Ev.parseEventW_eq hm]
  rfl

theorem Ev.loopW_eq {m : Nat} (hm : IsUsizeMax m) (v : Nat) (vars : List Variable) (n : Nat) (evs : List (Event D))
    (ls : List Str) : loopW m v vars n evs ls = loop v vars n evs ls := by
  induction ls generalizing n evs with
  | nil => rfl
  | cons l ls ih =>
    simp only [loopW, loop, Ev.stepW_eq hm]
    cases step v vars evs l with
    | ok e => exact ih _ _
    | err e => rfl
    | panic => rfl

theorem Ev.Events.parseVarsW_eq {m : Nat} (hm : IsUsizeMax m) (v : Nat) (vars : List Variable) (s : Str) :
    (Events.parseVarsW m v vars s : Res _ (List (Event D))) = Events.parseVars v vars s := Ev.loopW_eq hm ..

theorem Osb.parseW_eq {m : Nat} (hm : IsUsizeMax m) (v : Nat) (s : Str) :
    (Osb.parseW m v s : Res _ (Option (Osb D))) = Osb.parse v s := by
  have : (Osb.handleW m v : Osb D → _) = Osb.handle v := by
    funext o n b l
    unfold Osb.handleW Osb.handle
    rw [Ev.Events.parseVarsW_eq hm]
  unfold Osb.parseW Osb.parse
  rw [this]
  rfl

end

/-! ### The general section -/

section
variable {D : Type} [DecLib D]

theorem parseDigits_over {m M : Nat} (h : m ≤ M) (a : Nat) (s : Str) :
    parseDigits .posOverflow m a s = parseDigits .posOverflow M a s ∨ parseDigits .posOverflow m a s = .err .posOverflow := by
  induction s generalizing a with
  | nil => exact .inl rfl
  | cons c s ih =>
    simp only [parseDigits]
    cases digitVal c with
    | none => exact .inl rfl
    | some d =>
      simp only
      by_cases h1 : m < a * 10 + d
      · rw [if_pos h1]; exact .inr rfl
      · rw [if_neg h1, if_neg (by omega)]; exact ih _

theorem parseUsizeW_over {m : Nat} (hm : IsUsizeMax m) (s : Str) :
    parseUsizeW m s = parseUsize s ∨ parseUsizeW m s = .err .posOverflow := by
  have : parseUnsigned m s = parseUnsigned 18446744073709551615 s ∨ parseUnsigned m s = .err .posOverflow := by
    unfold parseUnsigned
    split
    · exact .inl rfl
    · split
      · exact .inl rfl
      · split
        · exact parseDigits_over hm.2 _ _
        · exact parseDigits_over hm.2 _ _
  unfold parseUsizeW parseUsize
  rcases this with h | h
  · rw [h]; exact .inl rfl
  · rw [h]; exact .inr rfl

theorem Countdown.parseW_over {m : Nat} (hm : IsUsizeMax m) (v : Nat) (s : Str) :
    Countdown.parseW m v s = Countdown.parse v s ∨ Countdown.parseW m v s = .err (.countdownInt .posOverflow) := by
  unfold Countdown.parseW Countdown.parse
  split
  · exact .inl rfl
  · rcases parseUsizeW_over hm s with h | h
    · rw [h]; exact .inl rfl
    · rw [h]; exact .inr rfl

theorem Mode.parseW_over {m : Nat} (hm : IsUsizeMax m) (v : Nat) (s : Str) :
    Mode.parseW m v s = Mode.parse v s ∨ Mode.parseW m v s = .err (.modeInt .posOverflow) := by
  unfold Mode.parseW Mode.parse
  rcases parseUsizeW_over hm s with h | h
  · rw [h]; exact .inl rfl
  · rw [h]; exact .inr rfl

theorem GKey.parseW_cases {m : Nat} (hm : IsUsizeMax m) (k : GKey) (v : Nat) (s : Str) :
    (GKey.parseW m k v s : Res _ (Option (k.Val D))) = GKey.parse k v s ∨
      ∃ e e', (GKey.parseW m k v s : Res _ (Option (k.Val D))) = .err e ∧
        (GKey.parse k v s : Res _ (Option (k.Val D))) = .err e' ∧ TooLarge e := by
  cases k
  case countdown =>
    show Countdown.parseW m v s = Countdown.parse v s ∨ ∃ e e', Countdown.parseW m v s = .err e ∧ Countdown.parse v s = .err e' ∧ _
    rcases Countdown.parseW_same hm v s with h | ⟨⟨e, h1⟩, e', h2⟩
    · exact .inl h
    · rcases Countdown.parseW_over hm v s with h | h
      · exact .inl h
      · exact .inr ⟨_, e', h, h2, .inl rfl⟩
  case mode =>
    show Mode.parseW m v s = Mode.parse v s ∨ ∃ e e', Mode.parseW m v s = .err e ∧ Mode.parse v s = .err e' ∧ _
    rcases Mode.parseW_same hm v s with h | ⟨⟨e, h1⟩, e', h2⟩
    · exact .inl h
    · rcases Mode.parseW_over hm v s with h | h
      · exact .inl h
      · exact .inr ⟨_, e', h, h2, .inr rfl⟩
  all_goals exact .inl rfl

section
variable (S : Schema) {v line : Nat} {f : FieldLine} {fs : List FieldLine} {seen : List Str} {sec : S.Section}

theorem run_seen (h : f.name ∈ seen) : S.run v (f :: fs) line seen sec = .err ⟨line, .duplicateField⟩ := by
  rw [Schema.run, if_pos h]

theorem run_none (h : f.name ∉ seen) (hl : S.lookup f.name = none) :
    S.run v (f :: fs) line seen sec = .err ⟨line, .invalidKey⟩ := by
  rw [Schema.run, if_neg h, hl]

theorem run_err (h : f.name ∉ seen) {k : S.Key} (hl : S.lookup f.name = some k) {e : S.Err}
    (hp : S.parse k v f.value = .err e) : S.run v (f :: fs) line seen sec = .err ⟨line, .field e⟩ := by
  rw [Schema.run, if_neg h, hl]; simp only [hp]

theorem run_panic (h : f.name ∉ seen) {k : S.Key} (hl : S.lookup f.name = some k)
    (hp : S.parse k v f.value = .panic) : S.run v (f :: fs) line seen sec = .panic := by
  rw [Schema.run, if_neg h, hl]; simp only [hp]

theorem run_ok (h : f.name ∉ seen) {k : S.Key} (hl : S.lookup f.name = some k) {x : Option (S.Val k)}
    (hp : S.parse k v f.value = .ok x) : S.run v (f :: fs) line seen sec =
      S.run v fs (line + (lines f.ws2).length) (seen ++ [f.name]) (S.set sec k x) := by
  rw [Schema.run, if_neg h, hl]; simp only [hp]

end

theorem generalW_run {m : Nat} (hm : IsUsizeMax m) (v : Nat) (fs : List FieldLine) (line : Nat) (seen : List Str)
    (sec : (General D).Section) :
    (GeneralW m D).run v fs line seen sec = (General D).run v fs line seen sec ∨
      ∃ l e e', (GeneralW m D).run v fs line seen sec = .err ⟨l, .field e⟩ ∧
        (General D).run v fs line seen sec = .err ⟨l, .field e'⟩ ∧ TooLarge e := by
  induction fs generalizing line seen sec with
  | nil => exact .inl rfl
  | cons f fs ih =>
    by_cases hs : f.name ∈ seen
    · exact .inl ((run_seen (GeneralW m D) hs).trans (run_seen (General D) hs).symm)
    · cases hl : (General D).lookup f.name with
      | none => exact .inl ((run_none (GeneralW m D) hs hl).trans (run_none (General D) hs hl).symm)
      | some k =>
        rcases GKey.parseW_cases (D := D) hm k v f.value with h | ⟨e, e', h1, h2, h3⟩
        · cases hp : (GKey.parse k v f.value : Res _ (Option (k.Val D))) with
          | err e => exact .inl ((run_err (GeneralW m D) hs hl (h.trans hp)).trans (run_err (General D) hs hl hp).symm)
          | panic => exact .inl ((run_panic (GeneralW m D) hs hl (h.trans hp)).trans (run_panic (General D) hs hl hp).symm)
          | ok x =>
            have a := run_ok (GeneralW m D) (fs := fs) (line := line) (sec := sec) hs hl (h.trans hp)
            have b := run_ok (General D) (fs := fs) (line := line) (sec := sec) hs hl hp
            rcases ih (line + (lines f.ws2).length) (seen ++ [f.name]) ((General D).set sec k x) with h | ⟨l, e, e', h1, h2, h3⟩
            · exact .inl (a.trans (h.trans b.symm))
            · exact .inr ⟨l, e, e', a.trans h1, b.trans h2, h3⟩
        · exact .inr ⟨line, e, e', run_err (GeneralW m D) hs hl h1, run_err (General D) hs hl h2, h3⟩

theorem generalW_fromStr {m : Nat} (hm : IsUsizeMax m) (v : Nat) (s : Str) :
    (GeneralW m D).fromStr v s = (General D).fromStr v s ∨
      ∃ l e e', (GeneralW m D).fromStr v s = .err ⟨l, .field e⟩ ∧ (General D).fromStr v s = .err ⟨l, .field e'⟩ ∧ TooLarge e := by
  unfold Schema.fromStr
  cases getColonFieldValueLines s with
  | ok r fs =>
    simp only
    split
    · exact .inl rfl
    · exact generalW_run hm v fs 0 [] _
  | error e => exact .inl rfl
  | failure e => exact .inl rfl
  | panic => exact .inl rfl

end
end Osu
