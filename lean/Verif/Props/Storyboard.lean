/-
Storyboard commands: C25 (easing), C27, C31, C32, C33.
-/
import Verif.Proof.CmdsRT
import Verif.Proof.CmdsPanic
import Verif.Proof.Dec96

namespace Osu
open SB
variable {D : Type} [DecLib D]

/-! ### C25: easing codes -/

omit [DecLib D] in
/-- Every code survives the conversion to an easing and back; distinct codes give distinct easings, and the
codes 0 to 34 are exactly the ones with a name. -/
theorem C25_easing (n m : Int32) : (Easing.ofInt n).toInt = n ∧ (Easing.ofInt n = Easing.ofInt m → n = m) ∧
    ((∃ k, Easing.ofInt n = .other k) ↔ ¬ (0 ≤ n.toInt ∧ n.toInt ≤ 34)) := by
  refine ⟨Easing.toInt_ofInt n, ?_, ?_⟩
  · intro h
    rw [← Easing.toInt_ofInt n, h, Easing.toInt_ofInt m]
  · constructor
    · rintro ⟨k, hk⟩
      have h1 := Easing.named_ofInt n
      have h2 := Easing.toInt_ofInt n
      rw [hk] at h1 h2
      rw [← h2]; exact h1
    · intro h; exact ⟨n, Easing.ofInt_other h⟩

example : Easing.ofInt (-7) = .other (-7) ∧ Easing.ofInt 34 = .bounceInOut := ⟨rfl, rfl⟩

/-- The text of an easing is read back, for every easing a number can denote. -/
theorem C25_easing_text (n : Int32) : parseI32 (Easing.ofInt n).shw = .ok n := by
  unfold Easing.shw
  rw [Easing.toInt_ofInt, parseI32_i32ToStr]

example : (Easing.ofInt 1000).shw = c!"1000" := by decide

/-! ### C27: command lines -/

/-- A command line is accepted exactly if its comma separated pieces (after the indentation) have the form
described by `CmdReads`, and then means what `CmdReads` says. -/
theorem C27_grammar [UniLib] (s : Str) (c : Command D) :
    Command.parse s = .ok c ↔ CmdReads (splitOnC ',' (s.dropWhile fun c => c == ' ' || c == '_')) c :=
  Command.command_reads

section
attribute [local instance] asciiUni
example : CmdReads (D := Dec96) (splitOnC ',' c!"M,0,100,,1,2,3") (.mk (some 100) (.move .linear none
    ⟨(Decimal.ofStr c!"1", Decimal.ofStr c!"2"), [(Decimal.ofStr c!"3", none)]⟩)) := by
  have h : splitOnC ',' c!"M,0,100,,1,2,3" = [c!"M", c!"0", c!"100", c!"", c!"1", c!"2", c!"3"] := by decide
  rw [h]
  exact CmdReads.move (n := 0) (by decide) (.start (by decide) (by intro c hc; cases hc))
end

/-- Printing a command, with any indentation, and reading the line gives the command (without its nested
commands, which have lines of their own). -/
theorem C27_round_trip [UniLib] {c : Command D} (hw : CmdFits c) {ind : Str} (hi : ∀ x ∈ ind, x = ' ' ∨ x = '_') :
    Command.parse (ind ++ c.shw) = .ok c.bare :=
  Command.parse_shw hw fun x hx => by
    rcases hi x hx with rfl | rfl <;> rfl

/-- Whatever is read from a line can be written, so reading, printing and reading again gives the same. -/
theorem C27_stable [UniLib] {s : Str} {c : Command D} (hs : '\n' ∉ s) (h : Command.parse s = .ok c) :
    CmdFits c ∧ Command.parse c.shw = .ok c := by
  obtain ⟨h1, h2⟩ := Command.parse_writable (cr := true) (fun x hx => by
    have : x ≠ '\n' := fun e => hs (e ▸ hx)
    simp [lastC, this]) h
  refine ⟨h1, ?_⟩
  have := Command.parse_shw h1 (ind := []) .nil
  rw [h2] at this
  exact this

/-- A command whose text is one line is read back exactly if it is writable. -/
theorem C27_exact [UniLib] {c : Command D} (hs : '\n' ∉ c.shw) :
    Command.parse c.shw = .ok c.bare ↔ CmdFits c := by
  constructor
  · intro h
    have := (C27_stable hs h).1
    obtain ⟨st, p⟩ := c
    cases p <;> exact this
  · intro h; exact Command.parse_shw h (ind := []) .nil

section
attribute [local instance] asciiUni
private def fadeEx : Command Dec96 := .mk (some 5) (.fade (.other 99) (some (-3)) (.ofStr c!"0.50") [.ofStr c!"x", .ofStr c!"1"])
example : CmdWritable fadeEx ∧ fadeEx.shw = c!"F,99,5,-3,0.50,x,1" := by
  refine ⟨⟨(by intro h; revert h; decide), (by intro h; cases h), decWritable_ofStr (by decide), ?_⟩, by decide⟩
  intro y hy
  rcases List.mem_cons.1 hy with rfl | hy
  · exact decWritable_ofStr (by decide)
  · rw [List.mem_singleton.1 hy]; exact decWritable_ofStr (by decide)
example : Command.parse (D := Dec96) c!"_ T,HitSoundAllWhistle,,7" =
    .ok (.mk none (.trigger (.hitSound { sampleSet := some .all, addition := some .whistle }) (some 7) none [])) := by rfl

/-- Not all commands are writable: an end time without a start time is printed as `F,0,,5,1`, which is
rejected. -/
theorem C27_unwritable : (Command.mk none (.fade .linear (some 5) (.ofStr c!"1") []) : Command Dec96).shw = c!"F,0,,5,1" ∧
    (Command.parse (D := Dec96) c!"F,0,,5,1").isErr = true := ⟨by decide, by rfl⟩
end

/-! ### C31: two-field continuing lists -/

omit [DecLib D] in
theorem pairsComplete_snoc {α : Type} {l : List (α × Option α)} {f : α × Option α} :
    PairsComplete (l ++ [f]) ↔ ∀ p ∈ l, p.2 ≠ none := by
  unfold PairsComplete; simp

theorem badNew_iff {α : Type} : ∀ {l : List (α × Option α)}, ContinuingFields.badNew l = false ↔ PairsComplete l
  | [] => by simp [ContinuingFields.badNew, PairsComplete]
  | [_] => by simp [ContinuingFields.badNew, PairsComplete]
  | f :: g :: l => by
    rw [ContinuingFields.badNew, Bool.or_eq_false_iff, badNew_iff]
    unfold PairsComplete
    rw [Command.dropLast_cons_mem]
    constructor
    · rintro ⟨h1, h2⟩ p hp
      rcases List.mem_cons.1 hp with rfl | hp
      · intro h; rw [h] at h1; cases h1
      · exact h2 p hp
    · intro h
      refine ⟨?_, fun p hp => h p (List.mem_cons_of_mem _ hp)⟩
      have := h f (by simp)
      cases hf : f.2 with
      | none => exact absurd hf this
      | some x => rfl

/-- The checked constructor accepts exactly the lists in which only the last entry may be incomplete. -/
theorem C31_new {α : Type} (start : α × α) (l : List (α × Option α)) :
    (PairsComplete l → ContinuingFields.new start l = .ok ⟨start, l⟩) ∧
    (¬ PairsComplete l → ContinuingFields.new start l = .err .invalidSecondFieldOption) := by
  unfold ContinuingFields.new
  rw [← badNew_iff]
  cases ContinuingFields.badNew l <;> simp

example : PairsComplete [((1 : Nat), some 2), (3, none)] ∧ ¬ PairsComplete [((1 : Nat), none), (3, none)] := by
  constructor
  · intro p hp; simp at hp; subst hp; simp
  · intro h; exact h (1, none) (by simp) rfl

/-- Every command read has continuing lists in which only the last entry may be incomplete. -/
theorem C31_parsed [UniLib] {s : Str} {c : Command D} (h : Command.parse s = .ok c) :
    (∀ st e et f, c = .mk st (.move e et f) → PairsComplete f.continuing) ∧
    (∀ st e et f, c = .mk st (.vectorScale e et f) → PairsComplete f.continuing) := by
  rw [Command.command_reads] at h
  generalize splitOnC ',' (s.dropWhile Command.isIndent) = ps at h
  constructor
  · rintro st e et f rfl
    cases h with | move => exact Command.twoByTwo_complete _
  · rintro st e et f rfl
    cases h with | vectorScale => exact Command.twoByTwo_complete _

section
attribute [local instance] asciiUni
example : Command.parse (D := Dec96) c!"V,0,1,,1,1,2" = .ok (.mk (some 1) (.vectorScale .linear none
    ⟨(.ofStr c!"1", .ofStr c!"1"), [(.ofStr c!"2", none)]⟩)) := by rfl
end

/-- A push panics exactly if the list has one entry, which is incomplete. -/
theorem C31_push_panics {α : Type} (c : ContinuingFields α) (f : α × Option α) :
    c.push f = none ↔ ∃ a, c.continuing = [(a, none)] := by
  unfold ContinuingFields.push
  obtain ⟨start, l⟩ := c
  simp only
  rcases List.eq_nil_or_concat l with rfl | ⟨l', b, rfl⟩
  · simp
  · simp only [List.concat_eq_append, List.getLast?_append, List.getLast?_singleton, Option.some_or, List.length_append,
      List.length_singleton]
    obtain ⟨a, o⟩ := b
    cases o with
    | none =>
      cases l' with
      | nil => simp
      | cons x l' => simp
    | some o =>
      simp only [Option.isNone_some, Bool.false_eq_true, if_false, reduceCtorEq, false_iff]
      rintro ⟨x, hx⟩
      cases l' with
      | nil => simp at hx
      | cons y l' => simp at hx

example : (⟨(0, 1), [(2, none)]⟩ : ContinuingFields Nat).push (3, none) = none := (C31_push_panics _ _).2 ⟨2, rfl⟩

/-- A push keeps the property, and the pushed entry is the last one. All entries but the incomplete last one are
kept, and that one keeps its first field and gets the second field of the entry before it. -/
theorem C31_push {α : Type} {c c' : ContinuingFields α} {f : α × Option α} (hc : PairsComplete c.continuing)
    (h : c.push f = some c') : PairsComplete c'.continuing ∧ c'.start = c.start ∧
    ((∀ a l, c.continuing ≠ l ++ [(a, none)]) → c'.continuing = c.continuing ++ [f]) ∧
    ∀ l x y a, c.continuing = l ++ [(x, some y), (a, none)] →
      c'.continuing = l ++ [(x, some y), (a, some y), f] := by
  unfold ContinuingFields.push at h
  obtain ⟨start, l⟩ := c
  simp only at h hc ⊢
  rcases List.eq_nil_or_concat l with rfl | ⟨l', b, rfl⟩
  · simp at h; subst h
    exact ⟨by intro p hp; simp at hp, rfl, by simp, by simp⟩
  · rw [List.concat_eq_append] at hc h ⊢
    rw [pairsComplete_snoc] at hc
    simp only [List.getLast?_append, List.getLast?_singleton, Option.some_or, List.length_append,
      List.length_singleton, List.dropLast_concat] at h
    obtain ⟨a, o⟩ := b
    cases o with
    | some o =>
      simp only [Option.isNone_some, Bool.false_eq_true, if_false, Option.some.injEq] at h
      subst h
      refine ⟨?_, rfl, fun _ => rfl, ?_⟩
      · simp only
        rw [pairsComplete_snoc]
        intro p hp
        rcases List.mem_append.1 hp with hp | hp
        · exact hc p hp
        · rw [List.mem_singleton.1 hp]; simp
      · intro l x y a' he
        have := congrArg List.getLast? he
        simp at this
    | none =>
      simp only [Option.isNone_none, if_true] at h
      split at h
      · cases h
      · rename_i hlen
        rcases List.eq_nil_or_concat l' with rfl | ⟨l2, b2, rfl⟩
        · simp at hlen
        · rw [List.concat_eq_append] at h hc ⊢
          have hidx : ((l2 ++ [b2]) ++ [(a, (none : Option α))])[(l2 ++ [b2]).length + 1 - 2]? = some b2 := by
            rw [List.getElem?_append_left (by simp), List.getElem?_append_right (by simp)]
            simp
          simp only [hidx, Option.some.injEq] at h
          subst h
          refine ⟨?_, rfl, ?_, ?_⟩
          · simp only
            rw [pairsComplete_snoc]
            intro p hp
            rcases List.mem_append.1 hp with hp | hp
            · exact hc p hp
            · rw [List.mem_singleton.1 hp]; exact hc b2 (by simp)
          · intro hne; exact absurd rfl (hne a (l2 ++ [b2]))
          · intro l x y a' he
            have he' : l2 ++ [b2] ++ [(a, none)] = (l ++ [(x, some y)]) ++ [(a', none)] := by rw [he]; simp
            obtain ⟨h1, h2⟩ := List.append_inj' he' rfl
            obtain ⟨h3, h4⟩ := List.append_inj' h1 rfl
            simp only [List.cons.injEq, Prod.mk.injEq, and_true] at h2 h4
            subst h2 h3 h4
            simp

example : (ContinuingFields.push ⟨(1, 1), [(2, some 3), (4, none)]⟩ (5, none) : Option (ContinuingFields Nat)) =
    some ⟨(1, 1), [(2, some 3), (4, some 3), (5, none)]⟩ := by rfl

/-- Replacing an entry keeps the property; it is refused if it would break it. -/
theorem C31_set {α : Type} (c : ContinuingFields α) (i : Nat) (f : α × Option α) (hc : PairsComplete c.continuing)
    (hne : c.continuing ≠ []) :
    (i < c.continuing.length ∧ PairsComplete (c.continuing.set i f) →
      c.set i f = .ok { c with continuing := c.continuing.set i f }) ∧
    (¬ (i < c.continuing.length ∧ PairsComplete (c.continuing.set i f)) → (c.set i f).isErr = true) := by
  unfold ContinuingFields.set
  obtain ⟨start, l⟩ := c
  simp only at hc hne ⊢
  have hl : l.length ≠ 0 := by simpa using hne
  rw [if_neg hl]
  by_cases hlt : i < l.length
  · have key : PairsComplete (l.set i f) ↔ ¬ (i ≠ l.length - 1 ∧ f.2.isNone = true) := by
      unfold PairsComplete at hc ⊢
      constructor
      · rintro h ⟨h1, h2⟩
        have h3 : i < l.length - 1 := by omega
        refine h f ?_ (by simpa using h2)
        rw [List.dropLast_eq_take, List.length_set, List.mem_iff_getElem]
        exact ⟨i, by simp; omega, by simp⟩
      · intro h p hp
        rw [List.dropLast_eq_take, List.length_set, List.mem_iff_getElem] at hp
        obtain ⟨j, hj, hp⟩ := hp
        simp at hj
        rw [List.getElem_take, List.getElem_set] at hp
        split at hp
        · rename_i hij
          subst hp hij
          intro hn
          exact h ⟨by omega, by simp [hn]⟩
        · subst hp
          refine hc _ ?_
          rw [List.dropLast_eq_take, List.mem_iff_getElem]
          exact ⟨j, by simp; omega, by simp⟩
    rw [key]
    by_cases hb : i ≠ l.length - 1 ∧ f.2.isNone = true
    · rw [if_pos hb]; exact ⟨fun h => absurd hb h.2, fun _ => rfl⟩
    · rw [if_neg hb, if_pos hlt]
      exact ⟨fun _ => rfl, fun h => absurd ⟨hlt, hb⟩ h⟩
  · refine ⟨fun h => absurd h.1 hlt, fun _ => ?_⟩
    simp only [hlt, if_false]
    split <;> rfl

/-- With no entries, replacing an entry panics instead of reporting that there is none. -/
theorem C31_set_panics {α : Type} (c : ContinuingFields α) (i : Nat) (f : α × Option α) :
    c.set i f = .panic ↔ c.continuing = [] := by
  unfold ContinuingFields.set
  split
  · rename_i h; simp at h; simp [h]
  · rename_i h
    simp only [List.length_eq_zero_iff] at h
    simp only [h, iff_false]
    split
    · simp
    · split <;> simp

example : (ContinuingFields.set ⟨(1, 1), [(2, some 3), (4, none)]⟩ 0 (5, none) : Res ContErr (ContinuingFields Nat)) =
    .err .invalidSecondFieldOption := by rfl

/-! ### C32: colours -/

/-- Blue needs green. -/
def GreenFirst {α : Type} (p : α × Option α × Option α) : Prop := p.2.1 = none → p.2.2 = none

theorem triplesComplete_snoc {α : Type} {l : List (α × Option α × Option α)} {f : α × Option α × Option α} :
    TriplesComplete (l ++ [f]) ↔ (∀ p ∈ l, p.2.1 ≠ none ∧ p.2.2 ≠ none) ∧ GreenFirst f := by
  unfold TriplesComplete GreenFirst
  simp only [List.dropLast_concat, List.mem_append, List.mem_singleton]
  constructor
  · rintro ⟨h1, h2⟩; exact ⟨h1, h2 f (.inr rfl)⟩
  · rintro ⟨h1, h2⟩
    refine ⟨h1, ?_⟩
    rintro p (hp | rfl)
    · intro h; exact absurd h (h1 p hp).1
    · exact h2

theorem colourNew_iff : ∀ {l : List (UInt8 × Option UInt8 × Option UInt8)}, Colours.badNew l = none ↔ TriplesComplete l
  | [] => by simp [Colours.badNew, TriplesComplete]
  | [(r, g, b)] => by
    rw [show [(r, g, b)] = [] ++ [(r, g, b)] from rfl, triplesComplete_snoc]
    cases g <;> cases b <;> simp [Colours.badNew, GreenFirst]
  | (r, g, b) :: y :: l => by
    have ih := @colourNew_iff (y :: l)
    unfold TriplesComplete at ih ⊢
    rw [Command.dropLast_cons_mem]
    cases g with
    | none => simp [Colours.badNew]
    | some g =>
      cases b with
      | none => simp [Colours.badNew]
      | some b =>
        have : Colours.badNew ((r, some g, some b) :: y :: l) = Colours.badNew (y :: l) := by
          conv => lhs; unfold Colours.badNew
          simp
        rw [this, ih]
        simp

/-- The checked constructor accepts exactly the lists in which only the last entry may be incomplete and no entry
has blue without green. -/
theorem C32_new (start : UInt8 × UInt8 × UInt8) (l : List (UInt8 × Option UInt8 × Option UInt8)) :
    (TriplesComplete l → Colours.new start l = .ok ⟨start, l⟩) ∧
    (¬ TriplesComplete l → (Colours.new start l).isErr = true) := by
  unfold Colours.new
  rw [← colourNew_iff]
  cases Colours.badNew l <;> simp [Res.isErr]

example : TriplesComplete [((1 : UInt8), some (2 : UInt8), some (3 : UInt8)), (4, none, none)] :=
  colourNew_iff.1 (by decide)

/-- Every colour command read has complete colours but possibly the last. -/
theorem C32_parsed [UniLib] {s : Str} {st : Option Int32} {e : Easing} {et : Option Int32} {cs : Colours}
    (h : Command.parse (D := D) s = .ok (.mk st (.colour e et cs))) : TriplesComplete cs.continuing := by
  rw [Command.command_reads] at h
  generalize splitOnC ',' (s.dropWhile Command.isIndent) = ps at h
  cases h with | colour => exact Command.threeByThree_complete _

section
attribute [local instance] asciiUni
example : Command.parse (D := Dec96) c!"C,0,1,,1,2,3,4,5" =
    .ok (.mk (some 1) (.colour .linear none ⟨(1, 2, 3), [(4, some 5, none)]⟩)) := by rfl
end

/-- A push panics exactly if the list has one entry, which is incomplete. -/
theorem C32_push_panics (c : Colours) (f : UInt8 × Option UInt8 × Option UInt8) :
    c.push f = none ↔ ∃ r g b, c.continuing = [(r, g, b)] ∧ (g = none ∨ b = none) := by
  unfold Colours.push
  obtain ⟨start, l⟩ := c
  simp only
  rcases List.eq_nil_or_concat l with rfl | ⟨l', b, rfl⟩
  · simp
  · obtain ⟨r, g, b⟩ := b
    simp only [List.concat_eq_append, List.getLast?_append, List.getLast?_singleton, Option.some_or, List.length_append,
      List.length_singleton]
    cases g with
    | none =>
      cases l' with
      | nil => simp; exact ⟨r, none, b, ⟨rfl, rfl, rfl⟩, .inl rfl⟩
      | cons x l' => simp
    | some g =>
      cases b with
      | none =>
        cases l' with
        | nil => simp; exact ⟨r, some g, none, ⟨rfl, rfl, rfl⟩, .inr rfl⟩
        | cons x l' => simp
      | some b =>
        cases l' with
        | nil => simp
        | cons x l' => simp

example : (⟨(1, 2, 3), [(7, some 8, none)]⟩ : Colours).push (9, none, none) = none :=
  (C32_push_panics _ _).2 ⟨7, some 8, none, rfl, .inr rfl⟩

/-- A push that does not panic keeps the property exactly if the last entry did not lack both green and blue, and
the new entry does not have blue without green. -/
theorem C32_push {c c' : Colours} {f : UInt8 × Option UInt8 × Option UInt8} (hc : TriplesComplete c.continuing)
    (h : c.push f = some c') :
    (TriplesComplete c'.continuing ↔ GreenFirst f ∧ ∀ l r, c.continuing ≠ l ++ [(r, none, none)]) := by
  unfold Colours.push at h
  obtain ⟨start, l⟩ := c
  simp only at h hc ⊢
  rcases List.eq_nil_or_concat l with rfl | ⟨l', b, rfl⟩
  · simp at h; subst h
    rw [show ([f] : List _) = [] ++ [f] from rfl, triplesComplete_snoc]
    simp
  · obtain ⟨r, g, b⟩ := b
    rw [List.concat_eq_append] at hc h ⊢
    rw [triplesComplete_snoc] at hc
    simp only [List.getLast?_append, List.getLast?_singleton, Option.some_or, List.length_append,
      List.length_singleton, List.dropLast_concat] at h
    have ends : ∀ {g b : Option UInt8}, (g ≠ none ∨ b ≠ none) →
        ∀ (l : List (UInt8 × Option UInt8 × Option UInt8)) r', l' ++ [(r, g, b)] ≠ l ++ [(r', none, none)] := by
      intro g b hgb l r' he
      obtain ⟨_, h2⟩ := List.append_inj' he rfl
      simp at h2
      rcases hgb with h | h
      · exact h h2.2.1
      · exact h h2.2.2
    cases g with
    | none =>
      have hb : b = none := hc.2 rfl
      subst hb
      simp only [Option.isNone_none, if_true] at h
      split at h
      · cases h
      · simp only [Option.some.injEq] at h
        subst h
        constructor
        · intro h
          simp only at h
          rw [triplesComplete_snoc] at h
          have := (h.1 _ (List.mem_append_right _ (List.mem_singleton.2 rfl))).2
          exact absurd rfl this
        · rintro ⟨_, h⟩; exact absurd rfl (h l' r)
    | some g =>
      cases b with
      | some b =>
        simp only [Option.isNone_some, Bool.false_eq_true, if_false, Option.some.injEq] at h
        subst h
        simp only
        rw [triplesComplete_snoc]
        constructor
        · rintro ⟨_, h⟩; exact ⟨h, ends (.inl (by simp))⟩
        · rintro ⟨h, _⟩
          refine ⟨?_, h⟩
          intro p hp
          rcases List.mem_append.1 hp with hp | hp
          · exact hc.1 p hp
          · rw [List.mem_singleton.1 hp]; simp
      | none =>
        simp only [Option.isNone_some, Bool.false_eq_true, if_false, Option.isNone_none, if_true] at h
        split at h
        · cases h
        · rename_i hlen
          rcases List.eq_nil_or_concat l' with rfl | ⟨l2, b2, rfl⟩
          · simp at hlen
          · rw [List.concat_eq_append] at h hc ends ⊢
            have hidx : ((l2 ++ [b2]) ++ [(r, some g, (none : Option UInt8))])[(l2 ++ [b2]).length + 1 - 2]? = some b2 := by
              rw [List.getElem?_append_left (by simp), List.getElem?_append_right (by simp)]
              simp
            simp only [hidx, Option.some.injEq] at h
            subst h
            simp only
            rw [triplesComplete_snoc]
            constructor
            · rintro ⟨_, h⟩; exact ⟨h, ends (.inl (by simp))⟩
            · rintro ⟨h, _⟩
              refine ⟨?_, h⟩
              intro p hp
              rcases List.mem_append.1 hp with hp | hp
              · exact hc.1 p hp
              · rw [List.mem_singleton.1 hp]
                exact ⟨by simp, (hc.1 b2 (by simp)).2⟩

/-- So pushing does not always keep it: the entry before the new one still lacks blue. -/
theorem C32_push_false : ∃ (c c' : Colours) (f : UInt8 × Option UInt8 × Option UInt8), TriplesComplete c.continuing ∧
    GreenFirst f ∧ c.push f = some c' ∧ ¬ TriplesComplete c'.continuing := by
  refine ⟨⟨(0, 0, 0), [(1, some 2, some 3), (4, none, none)]⟩,
    ⟨(0, 0, 0), [(1, some 2, some 3), (4, some 2, none), (5, some 6, some 7)]⟩, (5, some 6, some 7),
    colourNew_iff.1 (by decide), (by intro h; cases h), by rfl, ?_⟩
  rw [← colourNew_iff]; decide

example : (Colours.push ⟨(0, 0, 0), [(1, some 2, some 3), (4, some 5, none)]⟩ (6, none, none)) =
    some ⟨(0, 0, 0), [(1, some 2, some 3), (4, some 5, some 3), (6, none, none)]⟩ := by rfl

/-- With no entries, replacing an entry panics instead of reporting that there is none. -/
theorem C32_set_panics (c : Colours) (i : Nat) (f : UInt8 × Option UInt8 × Option UInt8) :
    c.set i f = .panic ↔ c.continuing = [] := by
  unfold Colours.set
  split
  · rename_i h; simp at h; simp [h]
  · rename_i h
    simp only [List.length_eq_zero_iff] at h
    simp only [h, iff_false]
    repeat' split
    all_goals simp

example : (⟨(1, 2, 3), []⟩ : Colours).set 0 (9, none, none) = .panic := (C32_set_panics _ _ _).2 rfl

/-- Replacing an entry keeps the property; it is refused if it would break it. -/
theorem C32_set (c : Colours) (i : Nat) (f : UInt8 × Option UInt8 × Option UInt8) (hc : TriplesComplete c.continuing)
    (hne : c.continuing ≠ []) :
    (i < c.continuing.length ∧ TriplesComplete (c.continuing.set i f) →
      c.set i f = .ok { c with continuing := c.continuing.set i f }) ∧
    (¬ (i < c.continuing.length ∧ TriplesComplete (c.continuing.set i f)) → (c.set i f).isErr = true) := by
  unfold Colours.set
  obtain ⟨start, l⟩ := c
  simp only at hc hne ⊢
  have hl : l.length ≠ 0 := by simpa using hne
  rw [if_neg hl]
  by_cases hlt : i < l.length
  · have key : TriplesComplete (l.set i f) ↔ GreenFirst f ∧ (i ≠ l.length - 1 → f.2.1 ≠ none ∧ f.2.2 ≠ none) := by
      unfold TriplesComplete at hc ⊢
      constructor
      · rintro ⟨h, h'⟩
        refine ⟨h' f ?_, ?_⟩
        · rw [List.mem_iff_getElem]; exact ⟨i, by simp; omega, by simp⟩
        · intro h1
          have h3 : i < l.length - 1 := by omega
          refine h f ?_
          rw [List.dropLast_eq_take, List.length_set, List.mem_iff_getElem]
          exact ⟨i, by simp; omega, by simp⟩
      · rintro ⟨hg, h⟩
        constructor
        · intro p hp
          rw [List.dropLast_eq_take, List.length_set, List.mem_iff_getElem] at hp
          obtain ⟨j, hj, hp⟩ := hp
          simp at hj
          rw [List.getElem_take, List.getElem_set] at hp
          split at hp
          · rename_i hij
            subst hp hij
            exact h (by omega)
          · subst hp
            refine hc.1 _ ?_
            rw [List.dropLast_eq_take, List.mem_iff_getElem]
            exact ⟨j, by simp; omega, by simp⟩
        · intro p hp
          rcases List.mem_or_eq_of_mem_set hp with hp | rfl
          · exact hc.2 p hp
          · exact hg
    rw [key]
    obtain ⟨r, g, b⟩ := f
    simp only [GreenFirst]
    by_cases hi : i = l.length - 1
    · subst hi
      simp only [BEq.rfl, Bool.not_true, Bool.false_and, Bool.false_or, Bool.false_eq_true, if_false, hlt, if_true]
      cases g <;> cases b <;> simp [Res.isErr]
    · have hb : (i == l.length - 1) = false := by simpa using hi
      simp only [hb, Bool.not_false, Bool.true_and, hlt, if_true]
      cases g <;> cases b <;> simp [Res.isErr, hi]
  · refine ⟨fun h => absurd h.1 hlt, fun _ => ?_⟩
    simp only [hlt, if_false]
    split
    · rfl
    · split <;> rfl

/-! ### C33: trigger types -/

/-- A trigger type is read back from its text exactly if it has a sample set before its additions sample set, and
a custom sample set of one digit. -/
theorem C33_exact [UniLib] (t : TriggerType) : TriggerType.parse t.shw = .ok t ↔ TriggerWritable t :=
  ⟨TriggerType.parse_writable, TriggerType.parse_shw⟩

example [UniLib] : TriggerType.parse (TriggerType.hitSound { sampleSet := some .drum, customSampleSet := some 7 }).shw =
    .ok (.hitSound { sampleSet := some .drum, customSampleSet := some 7 }) :=
  (C33_exact _).2 ⟨fun h => (by cases h), fun n h => by cases h; decide⟩

/-- A text is accepted as a trigger type exactly if it is `Passing`, `Failing`, or `HitSound` followed by words
in the order of the four optional parts. -/
theorem C33_grammar [UniLib] (s : Str) (t : TriggerType) : TriggerType.parse s = .ok t ↔ TriggerReads s t :=
  TriggerType.trigger_reads

/-- Reading a trigger type panics exactly if, in a text of at most four words, the custom
sample set is followed by another word. -/
theorem C33_panics [UniLib] (s : Str) : TriggerType.parse s = .panic ↔ TriggerPanics s :=
  TriggerType.trigger_panics

/-- Everything read is read back. -/
theorem C33_stable [UniLib] {s : Str} {t : TriggerType} (h : TriggerType.parse s = .ok t) :
    TriggerType.parse t.shw = .ok t := TriggerType.parse_shw (TriggerType.parse_writable h)

section
attribute [local instance] asciiUni
example : ∃ t, TriggerReads c!"HitSoundSoftWhistle" t := 
  ⟨.hitSound { sampleSet := some .soft, addition := some .whistle }, (C33_grammar _ _).1 (by rfl)⟩
example : TriggerPanics c!"HitSoundSoft12" := (C33_panics _).1 (by rfl)

private def hs : TriggerType := .hitSound ⟨some .soft, some .drum, some .clap, some 7⟩
example : TriggerWritable hs ∧ hs.shw = c!"HitSoundSoftDrumClap7" := ⟨⟨by simp, by simp⟩, by decide⟩

/-- A custom sample set of two digits is printed, but reading it panics. -/
theorem C33_false : (TriggerType.hitSound { customSampleSet := some 12 }).shw = c!"HitSound12" ∧
    TriggerType.parse c!"HitSound12" = .panic := ⟨by decide, by rfl⟩

/-- An additions sample set without a sample set is read back as a sample set. -/
theorem C33_ambiguous : TriggerType.parse (TriggerType.hitSound { additionsSampleSet := some .soft }).shw =
    .ok (.hitSound { sampleSet := some .soft }) := by rfl
end

/-! ### C27: panics -/

/-- Reading a command line panics exactly if it is a trigger whose type panics. -/
theorem C27_panics [UniLib] (s : Str) : (Command.parse s : Res CmdErr (Command D)) = .panic ↔
    CmdPanics (splitOnC ',' (s.dropWhile fun c => c == ' ' || c == '_')) :=
  Command.command_panics

section
attribute [local instance] asciiUni
example : CmdPanics (splitOnC ',' c!"T,HitSound12,0,1") := (C27_panics (D := Dec96) c!" T,HitSound12,0,1").1 (by rfl)
end

section
attribute [local instance] asciiUni

private def spacedText : Str := c!"__M,0,5,,1,-2.50,x,7"

private theorem spaced_ok : ∃ c : Command Dec96, Command.parse spacedText = .ok c := ⟨_, by rfl⟩

example : ∃ c : Command Dec96, CmdFits c ∧ Command.parse c.shw = .ok c :=
  spaced_ok.imp fun _ h => C27_stable (by decide) h

example : ∃ c : Command Dec96, Command.parse (c!" _ " ++ c.shw) = .ok c.bare :=
  spaced_ok.imp fun _ h => C27_round_trip (C27_stable (by decide) h).1 (ind := c!" _ ") (by decide)

end

/-- The second entry is the last one, so it may stay incomplete; the first one may not. -/
example : ContinuingFields.set ⟨(1, 1), [(2, some 3), (4, none)]⟩ 1 (5, none) = .ok ⟨((1 : Nat), 1), [(2, some 3), (5, none)]⟩ ∧
    (ContinuingFields.set ⟨((1 : Nat), 1), [(2, some 3), (4, none)]⟩ 0 (5, none)).isErr = true :=
  ⟨(C31_set ⟨(1, 1), [(2, some 3), (4, none)]⟩ 1 (5, none) (by unfold PairsComplete; decide) (by decide)).1
      ⟨by decide, by unfold PairsComplete; decide⟩,
    (C31_set ⟨(1, 1), [(2, some 3), (4, none)]⟩ 0 (5, none) (by unfold PairsComplete; decide) (by decide)).2
      (fun h => by have := h.2; unfold PairsComplete at this; revert this; decide)⟩

private def fade3 : Colours := ⟨(1, 2, 3), [(4, some 5, some 6), (7, some 8, none)]⟩

example (c' : Colours) (h : fade3.push (9, none, none) = some c') : TriplesComplete c'.continuing :=
  (C32_push (c := fade3) (by unfold TriplesComplete; decide) h).2 ⟨by unfold GreenFirst; decide, fun l r e => by
    have := congrArg List.getLast? e
    simp [fade3] at this⟩
example : (fade3.push (9, none, none)).isSome = true := by rfl

example : fade3.set 1 (9, none, none) = .ok { fade3 with continuing := [(4, some 5, some 6), (9, none, none)] } ∧
    (fade3.set 0 (9, none, none)).isErr = true :=
  ⟨(C32_set fade3 1 (9, none, none) (by unfold TriplesComplete; decide) (by decide)).1
      ⟨by decide, by unfold TriplesComplete; decide⟩,
    (C32_set fade3 0 (9, none, none) (by unfold TriplesComplete; decide) (by decide)).2
      (fun h => by have := h.2; unfold TriplesComplete at this; revert this; decide)⟩

end Osu
