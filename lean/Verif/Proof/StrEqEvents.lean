/-
Events and storyboard commands read from texts that the comparison of texts does not tell apart.
-/
import Verif.Proof.StrEqObjects
import Verif.Proof.EventsSection
import Verif.Proof.TriggerGrammar
import Verif.Spec.StrEqEvents

namespace Osu
open Parser SB Ev Trimmer

theorem bare_same {α : Type} {P : Str → α → Prop} (hb : ∀ s a, P s a → bareText s = s) (hu : ∀ s a b, P s a → P s b → a = b) {s t : Str}
    {x y : α} (h : P s x) (h' : P t y) (e : TextSame s t) : x = y := by
  unfold TextSame at e
  rw [hb s x h, hb t y h'] at e
  subst e
  exact hu _ _ _ h h'

theorem i32_same {a b : Str} {x y : Int32} (h : parseI32 a = .ok x) (h' : parseI32 b = .ok y) (e : TextSame a b) : x = y :=
  num_same (fun _ _ h => (parseI32_chars h).2) h h' e

theorem u8_same {a b : Str} {x y : UInt8} (h : parseU8 a = .ok x) (h' : parseU8 b = .ok y) (e : TextSame a b) : x = y :=
  num_same (fun _ _ h => (parseU8_chars h).2) h h' e

theorem u32_same {a b : Str} {x y : UInt32} (h : parseU32 a = .ok x) (h' : parseU32 b = .ok y) (e : TextSame a b) : x = y :=
  num_same (fun _ _ h => (parseU32_chars h).2) h h' e

/-- A number is not the same as blanks. -/
theorem i32_blank {a b : Str} {x : Int32} (h : parseI32 a = .ok x) (hb : bareText b = []) : ¬TextSame a b := by
  intro e
  unfold TextSame at e
  rw [hb, bareText_num (parseI32_chars h).2] at e
  exact (parseI32_chars h).1 e

theorem code_same {α : Type} {table : List α} {s t : Str} {x y : α} (h : CodeReads table s x) (h' : CodeReads table t y) (e : TextSame s t) :
    x = y := by
  obtain ⟨n, h1, h2⟩ := h
  obtain ⟨m, g1, g2⟩ := h'
  have := num_same (fun _ _ h => (parseUsize_chars h).2) h1 g1 e
  subst this
  rw [h2] at g2; cases g2; rfl

theorem vol_same {s t : Str} {x y : Ev.Volume} (h : VolReads s x) (h' : VolReads t y) (e : TextSame s t) : x = y := by
  have := u8_same h.1 h'.1 e
  cases x; cases y
  exact congrArg _ this

theorem origin_same {s t : Str} {x y : Origin} (h : OriginReads s x) (h' : OriginReads t y) (e : TextSame s t) : x = y := by
  refine bare_same (P := OriginReads) ?_ ?_ h h' e
  · intro s a h
    cases h with
    | name t => cases t <;> decide
    | code h => exact bareText_num (parseI32_chars h).2
    | other h => exact bareText_num (parseI32_chars h).2
  · intro s a b h h'
    have h := origin_iff.2 h
    rw [origin_iff.2 h'] at h
    cases h; rfl

theorem layer_same {l m : Layer} (e : TextSame l.shw m.shw) : l = m := by
  revert e; cases l <;> cases m <;> first | (intro _; rfl) | (intro e; exact absurd (show bareText _ = bareText _ from e) (by decide))

theorem loopType_same {l m : LoopType} (e : TextSame l.shw m.shw) : l = m := by
  revert e; cases l <;> cases m <;> first | (intro _; rfl) | (intro e; exact absurd (show bareText _ = bareText _ from e) (by decide))

theorem oldTime_same {v : Nat} {n m m' : Int32} (h : OldTime v n m) (h' : OldTime v n m') : m = m' := by
  have : m.toInt = m'.toInt := h.trans h'.symm
  exact Int32.toInt_inj.1 this

section
variable {D : Type} [DecLib D]

theorem posReads_same {ps qs : List Str} {x y : Option (Position D)} (h : PosReads ps x) (h' : PosReads qs y)
    (e : ps.map bareText = qs.map bareText) : OptSame PosSame x y := by
  cases h with
  | none =>
    cases h' with
    | none => trivial
    | some => simp at e
  | some a b bs =>
    cases h' with
    | none => simp at e
    | some c d ds =>
      simp only [List.map_cons, List.cons.injEq] at e
      exact ⟨⟨a, c, e.1, rfl, rfl⟩, _, _, TextSame.join (c := ',') (by decide) (by decide) (by simp only [List.map_cons, e.2.1, e.2.2]), rfl, rfl⟩

theorem volTail_same {ps qs : List Str} {x y : Option Ev.Volume} (h : VolTail ps x) (h' : VolTail qs y) (e : ps.map bareText = qs.map bareText) :
    x = y := by
  cases h <;> cases h' <;> simp only [List.map_cons, List.map_nil, List.cons.injEq, reduceCtorEq] at e
  · rfl
  · rename_i h _ _ h'
    rw [vol_same h h' e.1]

theorem vol100_same {ps qs : List Str} {x y : Ev.Volume} (h : VolOr100 ps x) (h' : VolOr100 qs y) (e : ps.map bareText = qs.map bareText) :
    x = y := by
  cases h <;> cases h' <;> simp only [List.map_cons, List.map_nil, List.cons.injEq, reduceCtorEq] at e
  · rfl
  · rename_i h _ _ h'
    rw [vol_same h h' e.1]

theorem loopTail_same {ps qs : List Str} {x y : LoopType} (h : LoopTail ps x) (h' : LoopTail qs y) (e : ps.map bareText = qs.map bareText) :
    x = y := by
  cases h <;> cases h' <;> simp only [List.map_cons, List.map_nil, List.cons.injEq, reduceCtorEq] at e
  · rfl
  · exact loopType_same e.1

/-- The first pieces of lines that start an event. -/
def evHeads : List Str := [c!"0", c!"1", c!"2", c!"3", c!"4", c!"5", c!"6", c!"Video", c!"Break", c!"Sprite", c!"Animation", c!"Sample"]

theorem evReads_head {v : Nat} {ps : List Str} {e : Event D} (h : EvReads v ps e) : ∃ p qs, ps = p :: qs ∧ p ∈ evHeads ∧ qs ≠ [] := by
  cases h with
  | @video _ _ _ _ _ _ _ s hh => cases s <;> subst hh <;> exact ⟨_, _, rfl, by decide, by simp⟩
  | @break_ _ _ _ _ _ _ _ s hh => cases s <;> subst hh <;> exact ⟨_, _, rfl, by decide, by simp⟩
  | _ => exact ⟨_, _, rfl, by decide, by simp⟩

theorem flag_same {s t : Bool} {a b : Str} (h : bareText (if s then a else b) = bareText (if t then a else b)) (hn : bareText a ≠ bareText b) : s = t := by
  cases s <;> cases t <;> simp_all

theorem differ {P : Prop} {p q : Str} {ps qs : List Str} (e : (p :: ps).map bareText = (q :: qs).map bareText) (h : bareText p ≠ bareText q) : P :=
  absurd (List.cons.inj e).1 h

theorem ev_same {v : Nat} {ps qs : List Str} {x y : Event D} (h : EvReads v ps x) (h' : EvReads v qs y) (e : ps.map bareText = qs.map bareText) :
    HeadSame x y := by
  cases h with
  | background ht hp =>
    cases h' with
    | background ht' hp' =>
      simp only [List.map_cons, List.cons.injEq] at e
      cases i32_same ht ht' e.2.1
      exact .background e.2.2.1 (posReads_same hp hp' e.2.2.2)
    | @video _ _ _ _ _ _ _ s' hh' => cases s' <;> subst hh' <;> exact differ e (by decide)
    | @break_ _ _ _ _ _ _ _ s' hh' => cases s' <;> subst hh' <;> exact differ e (by decide)
    | _ => exact differ e (by decide)
  | @video _ _ _ _ _ _ _ s hh ht hn hp =>
    cases h' with
    | @video _ _ _ _ _ _ _ s' hh' ht' hn' hp' =>
      simp only [List.map_cons, List.cons.injEq] at e
      subst hh hh'
      cases flag_same e.1 (by decide)
      cases i32_same ht ht' e.2.1
      cases oldTime_same hn hn'
      exact .video e.2.2.1 (posReads_same hp hp' e.2.2.2)
    | @break_ _ _ _ _ _ _ _ s' hh' => cases s <;> subst hh <;> cases s' <;> subst hh' <;> exact differ e (by decide)
    | _ => cases s <;> subst hh <;> exact differ e (by decide)
  | @break_ _ _ _ _ _ _ _ s hh ha hn hb hm =>
    cases h' with
    | @break_ _ _ _ _ _ _ _ s' hh' ha' hn' hb' hm' =>
      simp only [List.map_cons, List.cons.injEq] at e
      subst hh hh'
      cases flag_same e.1 (by decide)
      cases i32_same ha ha' e.2.1
      cases i32_same hb hb' e.2.2.1
      cases oldTime_same hn hn'
      cases oldTime_same hm hm'
      exact .same _
    | @video _ _ _ _ _ _ _ s' hh' => cases s <;> subst hh <;> cases s' <;> subst hh' <;> exact differ e (by decide)
    | _ => cases s <;> subst hh <;> exact differ e (by decide)
  | colourTransformation ht hn hx hy hz =>
    cases h' with
    | colourTransformation ht' hn' hx' hy' hz' =>
      simp only [List.map_cons, List.cons.injEq] at e
      cases i32_same ht ht' e.2.1
      cases oldTime_same hn hn'
      cases u8_same hx hx' e.2.2.1
      cases u8_same hy hy' e.2.2.2.1
      cases u8_same hz hz' e.2.2.2.2.1
      exact .same _
    | @video _ _ _ _ _ _ _ s' hh' => cases s' <;> subst hh' <;> exact differ e (by decide)
    | @break_ _ _ _ _ _ _ _ s' hh' => cases s' <;> subst hh' <;> exact differ e (by decide)
    | _ => exact differ e (by decide)
  | spriteLegacy hl ho hp =>
    cases h' with
    | spriteLegacy hl' ho' hp' =>
      simp only [List.map_cons, List.cons.injEq] at e
      cases code_same hl hl' e.2.1
      cases code_same ho ho' e.2.2.1
      exact .spriteLegacy e.2.2.2.1 (posReads_same hp hp' e.2.2.2.2)
    | @video _ _ _ _ _ _ _ s' hh' => cases s' <;> subst hh' <;> exact differ e (by decide)
    | @break_ _ _ _ _ _ _ _ s' hh' => cases s' <;> subst hh' <;> exact differ e (by decide)
    | _ => exact differ e (by decide)
  | animationLegacy hl ho hp =>
    cases h' with
    | animationLegacy hl' ho' hp' =>
      simp only [List.map_cons, List.cons.injEq] at e
      cases code_same hl hl' e.2.1
      cases code_same ho ho' e.2.2.1
      exact .animationLegacy e.2.2.2.1 (posReads_same hp hp' e.2.2.2.2)
    | @video _ _ _ _ _ _ _ s' hh' => cases s' <;> subst hh' <;> exact differ e (by decide)
    | @break_ _ _ _ _ _ _ _ s' hh' => cases s' <;> subst hh' <;> exact differ e (by decide)
    | _ => exact differ e (by decide)
  | sampleLegacy hl hv =>
    cases h' with
    | sampleLegacy hl' hv' =>
      simp only [List.map_cons, List.cons.injEq] at e
      cases code_same hl hl' e.2.2.1
      cases volTail_same hv hv' e.2.2.2.2
      exact .sampleLegacy ⟨_, _, e.2.1, rfl, rfl⟩ e.2.2.2.1
    | @video _ _ _ _ _ _ _ s' hh' => cases s' <;> subst hh' <;> exact differ e (by decide)
    | @break_ _ _ _ _ _ _ _ s' hh' => cases s' <;> subst hh' <;> exact differ e (by decide)
    | _ => exact differ e (by decide)
  | sprite ho =>
    cases h' with
    | sprite ho' =>
      simp only [List.map_cons, List.cons.injEq] at e
      cases layer_same e.2.1
      cases origin_same ho ho' e.2.2.1
      exact .object ⟨⟨_, _, e.2.2.2.2.1, rfl, rfl⟩, ⟨_, _, e.2.2.2.2.2.1, rfl, rfl⟩⟩ (.sprite e.2.2.2.1)
    | @video _ _ _ _ _ _ _ s' hh' => cases s' <;> subst hh' <;> exact differ e (by decide)
    | @break_ _ _ _ _ _ _ _ s' hh' => cases s' <;> subst hh' <;> exact differ e (by decide)
    | _ => exact differ e (by decide)
  | animation ho hc hd hl =>
    cases h' with
    | animation ho' hc' hd' hl' =>
      simp only [List.map_cons, List.cons.injEq] at e
      obtain ⟨-, e1, e2, e3, e4, e5, e6, e7, e8⟩ := e
      cases layer_same e1
      cases origin_same ho ho' e2
      cases u32_same hc hc' e6
      cases loopTail_same hl hl' e8
      exact .object ⟨⟨_, _, e4, rfl, rfl⟩, ⟨_, _, e5, rfl, rfl⟩⟩ (.animation ⟨_, _, e7, hd, hd'⟩ e3)
    | @video _ _ _ _ _ _ _ s' hh' => cases s' <;> subst hh' <;> exact differ e (by decide)
    | @break_ _ _ _ _ _ _ _ s' hh' => cases s' <;> subst hh' <;> exact differ e (by decide)
    | _ => exact differ e (by decide)
  | audioSample ht hl hv =>
    cases h' with
    | audioSample ht' hl' hv' =>
      simp only [List.map_cons, List.cons.injEq] at e
      cases i32_same ht ht' e.2.1
      cases code_same hl hl' e.2.2.1
      cases vol100_same hv hv' e.2.2.2.2
      exact .audioSample e.2.2.2.1
    | @video _ _ _ _ _ _ _ s' hh' => cases s' <;> subst hh' <;> exact differ e (by decide)
    | @break_ _ _ _ _ _ _ _ s' hh' => cases s' <;> subst hh' <;> exact differ e (by decide)
    | _ => exact differ e (by decide)

/-! ### Commands -/

theorem blankField_bare {s : Str} (h : BlankField s) : bareText s = [] := bareText_ws h

omit [DecLib D] in
theorem times_same {a b a' b' : Str} {st et st' et' : Option Int32} (h : TimesRead a b st et) (h' : TimesRead a' b' st' et') (e1 : TextSame a a')
    (e2 : TextSame b b') : st = st' ∧ et = et' := by
  cases h with
  | none =>
    cases h' with
    | none => exact ⟨rfl, rfl⟩
    | start ha => exact absurd e1.symm (i32_blank ha rfl)
    | both ha => exact absurd e1.symm (i32_blank ha rfl)
  | start ha hb =>
    cases h' with
    | none => exact absurd e1 (i32_blank ha rfl)
    | start ha' hb' => exact ⟨by rw [i32_same ha ha' e1], rfl⟩
    | both ha' hb' => exact absurd e2.symm (i32_blank hb' (blankField_bare hb))
  | both ha hb =>
    cases h' with
    | none => exact absurd e1 (i32_blank ha rfl)
    | start ha' hb' => exact absurd e2 (i32_blank hb (blankField_bare hb'))
    | both ha' hb' => exact ⟨by rw [i32_same ha ha' e1], by rw [i32_same hb hb' e2]⟩

theorem nums_same {xs ys : List Str} (e : xs.map bareText = ys.map bareText) :
    Each (NumSame (D := D)) (xs.map Decimal.ofStr) (ys.map Decimal.ofStr) :=
  (Each.of_map (R := TextSame) e fun _ _ _ _ h => h).map fun a b h => ⟨a, b, h, rfl, rfl⟩

omit [DecLib D] in
theorem two_same {α : Type} {R : α → α → Prop} : ∀ {xs ys : List α}, Each R xs ys →
    Each (fun p q => R p.1 q.1 ∧ OptSame R p.2 q.2) (twoByTwo xs) (twoByTwo ys)
  | _, _, .nil => .nil
  | _, _, .cons h .nil => .cons ⟨h, trivial⟩ .nil
  | _, _, .cons h (.cons h' t) => .cons ⟨h, h'⟩ (two_same t)

theorem pairs_same {x y x' y' : Str} {xs ys : List Str} (e1 : TextSame x x') (e2 : TextSame y y') (e3 : xs.map bareText = ys.map bareText) :
    PairsSame (D := D) ⟨(.ofStr x, .ofStr y), twoByTwo (xs.map .ofStr)⟩ ⟨(.ofStr x', .ofStr y'), twoByTwo (ys.map .ofStr)⟩ :=
  ⟨⟨_, _, e1, rfl, rfl⟩, ⟨_, _, e2, rfl, rfl⟩, two_same (nums_same e3)⟩

omit [DecLib D] in
theorem list_same {ε α : Type} {f : Str → Res ε α} (hf : ∀ s a, f s = .ok a → bareText s = s) {xs ys : List Str} {l m : List α}
    (h : xs.map f = l.map .ok) (h' : ys.map f = m.map .ok) (e : xs.map bareText = ys.map bareText) : l = m :=
  Each.eq (each_read (map_ok_each h) (map_ok_each h') (f := bareText) (fun a b x y hx hy hab =>
    bare_same (P := fun s a => f s = .ok a) hf (fun s a b h h' => by rw [h] at h'; cases h'; rfl) hx hy hab) e)

omit [DecLib D] in
theorem parameter_bare (s : Str) (a : Parameter) (h : Parameter.parse s = .ok a) : bareText s = s := by
  unfold Parameter.parse at h
  split at h
  · rename_i hs; subst hs; decide
  split at h
  · rename_i hs; subst hs; decide
  split at h
  · rename_i hs; subst hs; decide
  · cases h

omit [DecLib D] in
theorem startRead_same {a b : Str} {x y : Option Int32} (h : StartRead a x) (h' : StartRead b y) (e : TextSame a b) : x = y := by
  cases h with
  | none =>
    cases h' with
    | none => rfl
    | some ha => exact absurd e.symm (i32_blank ha rfl)
  | some ha =>
    cases h' with
    | none => exact absurd e (i32_blank ha rfl)
    | some ha' => rw [i32_same ha ha' e]

omit [DecLib D] in
theorem triggerTail_same {ps qs : List Str} {et g et' g' : Option Int32} (h : TriggerTail ps et g) (h' : TriggerTail qs et' g')
    (e : ps.map bareText = qs.map bareText) : et = et' ∧ g = g' := by
  cases h with
  | none => cases h' <;> first | exact ⟨rfl, rfl⟩ | (simp at e)
  | empty =>
    cases h' with
    | empty => exact ⟨rfl, rfl⟩
    | stop ha => exact absurd (List.cons.inj e).1.symm (i32_blank (b := []) ha rfl)
    | _ => simp at e
  | stop ha =>
    cases h' with
    | empty => exact absurd (List.cons.inj e).1 (i32_blank (b := []) ha rfl)
    | stop ha' => exact ⟨by rw [i32_same ha ha' (List.cons.inj e).1], rfl⟩
    | _ => simp at e
  | both ha hb =>
    cases h' with
    | both ha' hb' =>
      exact ⟨by rw [i32_same ha ha' (List.cons.inj e).1], by rw [i32_same hb hb' (List.cons.inj (List.cons.inj e).2).1]⟩
    | group hb' => exact absurd (List.cons.inj e).1 (i32_blank (b := []) ha rfl)
    | _ => simp at e
  | group hb =>
    cases h' with
    | both ha' => exact absurd (List.cons.inj e).1.symm (i32_blank (b := []) ha' rfl)
    | group hb' => exact ⟨rfl, by rw [i32_same hb hb' (List.cons.inj (List.cons.inj e).2).1]⟩
    | _ => simp at e

omit [DecLib D] in
theorem triggerTimes_same {ps qs : List Str} {st et g st' et' g' : Option Int32} (h : TriggerTimes ps st et g) (h' : TriggerTimes qs st' et' g')
    (e : ps.map bareText = qs.map bareText) : st = st' ∧ et = et' ∧ g = g' := by
  cases h with
  | none => cases h' <;> first | exact ⟨rfl, rfl, rfl⟩ | (simp at e)
  | skip h =>
    cases h' with
    | none => simp at e
    | skip h' => exact ⟨rfl, triggerTail_same h h' (List.cons.inj e).2⟩
    | start ha => exact absurd (List.cons.inj e).1.symm (i32_blank (b := []) ha rfl)
  | start ha h =>
    cases h' with
    | none => simp at e
    | skip h' => exact absurd (List.cons.inj e).1 (i32_blank (b := []) ha rfl)
    | start ha' h' => exact ⟨by rw [i32_same ha ha' (List.cons.inj e).1], triggerTail_same h h' (List.cons.inj e).2⟩

section
variable [UniLib]

omit [DecLib D] in
theorem trigger_bare {s : Str} {t : TriggerType} (h : TriggerReads s t) : bareText s = trim s := by
  rw [← bareText_trim]
  cases h with
  | passing h => rw [h]; decide
  | failing h => rw [h]; decide
  | @hitSound r ws hs h hw hl hr =>
    rw [h, bareText_append, ← hw.1]
    obtain ⟨-, num, rfl, hnum⟩ := hr
    have set : ∀ o : Option SB.SampleSet, bareText (o.map SB.SampleSet.shw).toList.flatten = (o.map SB.SampleSet.shw).toList.flatten := by
      rintro (_ | x)
      · rfl
      · cases x <;> decide
    have add : ∀ o : Option SB.Addition, bareText (o.map SB.Addition.shw).toList.flatten = (o.map SB.Addition.shw).toList.flatten := by
      rintro (_ | x)
      · rfl
      · cases x <;> decide
    have hn : bareText num.flatten = num.flatten := by
      rcases hnum with ⟨rfl, -⟩ | ⟨w, n, rfl, hw, -⟩
      · rfl
      · simpa using bareText_num (parseUsize_chars hw).2
    simp only [List.flatten_append, bareText_append, set, add, hn]
    rfl

omit [DecLib D] in
theorem trigger_same {a b : Str} {x y : TriggerType} (h : TriggerType.parse a = .ok x) (h' : TriggerType.parse b = .ok y) (e : TextSame a b) :
    x = y := by
  have h1 := TriggerType.trigger_reads.1 h
  have h2 := TriggerType.trigger_reads.1 h'
  unfold TextSame at e
  rw [trigger_bare h1, trigger_bare h2] at e
  have : TriggerReads b x := by
    cases h1 with
    | passing h => exact .passing (by rw [← e]; assumption)
    | failing h => exact .failing (by rw [← e]; assumption)
    | hitSound h1 hw hl hr => exact .hitSound (by rw [← e]; exact h1) hw hl hr
  have := TriggerType.trigger_reads.2 this
  rw [h'] at this
  cases this; rfl

/-- The first pieces of command lines. -/
def cmdHeads : List Str := [c!"F", c!"MX", c!"MY", c!"S", c!"R", c!"M", c!"V", c!"C", c!"P", c!"L", c!"T"]

theorem cmdReads_head {ps : List Str} {c : Command D} (h : CmdReads ps c) : ∃ p qs, ps = p :: qs ∧ p ∈ cmdHeads ∧ qs ≠ [] := by
  cases h <;> exact ⟨_, _, rfl, by decide, by simp⟩

theorem cmd_same {ps qs : List Str} {x y : Command D} (h : CmdReads ps x) (h' : CmdReads qs y) (e : ps.map bareText = qs.map bareText) :
    CmdSame x y := by
  cases h with
  | fade he ht =>
    cases h' with
    | fade he' ht' =>
      simp only [List.map_cons, List.cons.injEq] at e
      cases i32_same he he' e.2.1
      obtain ⟨rfl, rfl⟩ := times_same ht ht' e.2.2.1 e.2.2.2.1
      exact .fade ⟨_, _, e.2.2.2.2.1, rfl, rfl⟩ (nums_same e.2.2.2.2.2)
    | _ => exact differ e (by decide)
  | moveX he ht =>
    cases h' with
    | moveX he' ht' =>
      simp only [List.map_cons, List.cons.injEq] at e
      cases i32_same he he' e.2.1
      obtain ⟨rfl, rfl⟩ := times_same ht ht' e.2.2.1 e.2.2.2.1
      exact .moveX ⟨_, _, e.2.2.2.2.1, rfl, rfl⟩ (nums_same e.2.2.2.2.2)
    | _ => exact differ e (by decide)
  | moveY he ht =>
    cases h' with
    | moveY he' ht' =>
      simp only [List.map_cons, List.cons.injEq] at e
      cases i32_same he he' e.2.1
      obtain ⟨rfl, rfl⟩ := times_same ht ht' e.2.2.1 e.2.2.2.1
      exact .moveY ⟨_, _, e.2.2.2.2.1, rfl, rfl⟩ (nums_same e.2.2.2.2.2)
    | _ => exact differ e (by decide)
  | scale he ht =>
    cases h' with
    | scale he' ht' =>
      simp only [List.map_cons, List.cons.injEq] at e
      cases i32_same he he' e.2.1
      obtain ⟨rfl, rfl⟩ := times_same ht ht' e.2.2.1 e.2.2.2.1
      exact .scale ⟨_, _, e.2.2.2.2.1, rfl, rfl⟩ (nums_same e.2.2.2.2.2)
    | _ => exact differ e (by decide)
  | rotate he ht =>
    cases h' with
    | rotate he' ht' =>
      simp only [List.map_cons, List.cons.injEq] at e
      cases i32_same he he' e.2.1
      obtain ⟨rfl, rfl⟩ := times_same ht ht' e.2.2.1 e.2.2.2.1
      exact .rotate ⟨_, _, e.2.2.2.2.1, rfl, rfl⟩ (nums_same e.2.2.2.2.2)
    | _ => exact differ e (by decide)
  | move he ht =>
    cases h' with
    | move he' ht' =>
      simp only [List.map_cons, List.cons.injEq] at e
      cases i32_same he he' e.2.1
      obtain ⟨rfl, rfl⟩ := times_same ht ht' e.2.2.1 e.2.2.2.1
      exact .move (pairs_same e.2.2.2.2.1 e.2.2.2.2.2.1 e.2.2.2.2.2.2)
    | _ => exact differ e (by decide)
  | vectorScale he ht =>
    cases h' with
    | vectorScale he' ht' =>
      simp only [List.map_cons, List.cons.injEq] at e
      cases i32_same he he' e.2.1
      obtain ⟨rfl, rfl⟩ := times_same ht ht' e.2.2.1 e.2.2.2.1
      exact .vectorScale (pairs_same e.2.2.2.2.1 e.2.2.2.2.2.1 e.2.2.2.2.2.2)
    | _ => exact differ e (by decide)
  | colour he ht hx hy hz hl =>
    cases h' with
    | colour he' ht' hx' hy' hz' hl' =>
      simp only [List.map_cons, List.cons.injEq] at e
      cases i32_same he he' e.2.1
      obtain ⟨rfl, rfl⟩ := times_same ht ht' e.2.2.1 e.2.2.2.1
      obtain ⟨-, -, -, -, e1, e2, e3, e4⟩ := e
      cases u8_same hx hx' e1
      cases u8_same hy hy' e2
      cases u8_same hz hz' e3
      cases list_same (fun _ _ h => bareText_num (parseU8_chars h).2) hl hl' e4
      exact .same _
    | _ => exact differ e (by decide)
  | parameter he ht hp hl =>
    cases h' with
    | parameter he' ht' hp' hl' =>
      simp only [List.map_cons, List.cons.injEq] at e
      cases i32_same he he' e.2.1
      obtain ⟨rfl, rfl⟩ := times_same ht ht' e.2.2.1 e.2.2.2.1
      obtain ⟨-, -, -, -, e1, e2⟩ := e
      cases bare_same (P := fun s a => Parameter.parse s = .ok a) parameter_bare (fun s a b h h' => by rw [h] at h'; cases h'; rfl) hp hp' e1
      cases list_same parameter_bare hl hl' e2
      exact .same _
    | _ => exact differ e (by decide)
  | loop ha hb =>
    cases h' with
    | loop ha' hb' =>
      simp only [List.map_cons, List.cons.injEq] at e
      cases startRead_same ha ha' e.2.1
      cases u32_same hb hb' e.2.2.1
      exact .same _
    | _ => exact differ e (by decide)
  | trigger hx ht =>
    cases h' with
    | trigger hx' ht' =>
      simp only [List.map_cons, List.cons.injEq] at e
      cases trigger_same hx hx' e.2.1
      obtain ⟨rfl, rfl, rfl⟩ := triggerTimes_same ht ht' e.2.2
      exact .same _
    | _ => exact differ e (by decide)

/-! ### Rows -/

/-- What a line of the section stands for. -/
def RowReads (v : Nat) (l : Str) : Event D ⊕ Command D → Prop
  | .inl e => HeadReads v l e
  | .inr c => ∃ k, CmdLineReads l (k, c)

theorem cmdLines_rows {v : Nat} {ls : List Str} {xs : List (Nat × Command D)} (h : CmdLines CmdLineReads ls xs) :
    Each (RowReads v) ls ((xs.map Prod.snd).map .inr) := by
  induction h with
  | nil => exact .nil
  | cons h _ ih => exact .cons ⟨_, h⟩ ih

omit [DecLib D] [UniLib] in
theorem Each.append {α β : Type} {R : α → β → Prop} {a c : List α} {b d : List β} (h : Each R a b) (h' : Each R c d) : Each R (a ++ c) (b ++ d) := by
  induction h with
  | nil => exact h'
  | cons h _ ih => exact .cons h ih

theorem section_rows {v : Nat} {ls : List Str} {evs : List (Event D)} (h : SectionReads v CmdLineReads ls evs) :
    Each (RowReads v) ls (evs.flatMap eventRows) := by
  induction h with
  | nil => exact .nil
  | cons hh hc _ ih =>
    rw [List.flatMap_cons]
    exact .cons hh ((cmdLines_rows hc).append ih)

omit [DecLib D] [UniLib] in
/-- The pieces of a line with something without commas in front. -/
theorem pieces_front {a l p : Str} {ps : List Str} (ha : ',' ∉ a) (h : splitOnC ',' l = p :: ps) : splitOnC ',' (a ++ l) = (a ++ p) :: ps := by
  induction a with
  | nil => exact h
  | cons c a ih =>
    have hc : c ≠ ',' := fun e => ha (by simp [e])
    have := ih fun hm => ha (List.mem_cons_of_mem _ hm)
    rw [List.cons_append, splitOnC, if_neg (by simpa using hc), this]
    rfl

omit [DecLib D] [UniLib] in
theorem head_comment (s : Str) : ∃ p ps, splitOnC ',' (c!"//" ++ s) = ('/' :: p) :: ps := by
  cases h : splitOnC ',' s with
  | nil => exact absurd h (splitOnC_ne_nil _ _)
  | cons p ps => exact ⟨_, _, pieces_front (by decide) h⟩

/-- The pieces of a command line: indentation and header, and what follows. -/
theorem cmdLine_pieces {l : Str} {x : Nat × Command D} (h : CmdLineReads l x) : ∃ u p ps, splitOnC ',' l = (u ++ p) :: ps ∧
    (∀ c ∈ bareText u, c = '_') ∧ p ∈ cmdHeads ∧ ps ≠ [] ∧ CmdReads (p :: ps) x.2 := by
  obtain ⟨-, -, -, h⟩ := h
  obtain ⟨p, ps, h1, h2, h3⟩ := cmdReads_head h
  have hu : ∀ c ∈ l.takeWhile fun c => c == ' ' || c == '_', c = ' ' ∨ c = '_' := by
    intro c hc
    have := List.all_takeWhile (p := fun c => c == ' ' || c == '_') (l := l)
    simpa using List.all_eq_true.1 this c hc
  refine ⟨l.takeWhile fun c => c == ' ' || c == '_', p, ps, ?_, ?_, h2, h3, h1 ▸ h⟩
  · conv => lhs; rw [← List.takeWhile_append_dropWhile (p := fun c => c == ' ' || c == '_') (l := l)]
    exact pieces_front (fun hm => by rcases hu _ hm with h | h <;> exact absurd h (by decide)) h1
  · intro c hc
    obtain ⟨hm, hc⟩ := List.mem_filter.1 hc
    rcases hu c hm with rfl | rfl
    · exact absurd hc (by decide)
    · rfl

omit [DecLib D] [UniLib] in
theorem unders_split {u w p q : Str} (hu : ∀ c ∈ u, c = '_') (hw : ∀ c ∈ w, c = '_') (hp : p.head? ≠ some '_') (hq : q.head? ≠ some '_')
    (e : u ++ p = w ++ q) : p = q := by
  induction u generalizing w with
  | nil =>
    cases w with
    | nil => exact e
    | cons c w =>
      cases hw c (by simp)
      rw [List.nil_append] at e
      rw [e] at hp
      exact absurd rfl hp
  | cons c u ih =>
    cases hu c (by simp)
    cases w with
    | nil =>
      rw [List.nil_append] at e
      rw [← e] at hq
      exact absurd rfl hq
    | cons d w =>
      rw [List.cons_append, List.cons_append] at e
      exact ih (fun c hc => hu c (List.mem_cons_of_mem _ hc)) (fun c hc => hw c (List.mem_cons_of_mem _ hc)) (List.cons.inj e).2

omit [DecLib D] [UniLib] in
theorem cmdHead_not {u p : Str} (hu : ∀ c ∈ u, c = '_') (hp : p ∈ cmdHeads) : u ++ p ∉ evHeads ∧ (u ++ p).head? ≠ some '/' := by
  cases u with
  | nil =>
    have : ∀ p ∈ cmdHeads, p ∉ evHeads ∧ p.head? ≠ some '/' := by decide
    exact this p hp
  | cons c u =>
    cases hu c (by simp)
    have : ∀ q ∈ evHeads, q.head? ≠ some '_' := by decide
    exact ⟨fun h => this _ h rfl, by simp⟩

theorem head_pieces {v : Nat} {l : Str} {e : Event D} (h : HeadReads v l e) : ∃ p ps, splitOnC ',' l = p :: ps ∧
    (bareText p ∈ evHeads ∨ (bareText p).head? = some '/') := by
  cases h with
  | comment s =>
    obtain ⟨p, ps, h⟩ := head_comment s
    exact ⟨_, _, h, .inr rfl⟩
  | event h =>
    obtain ⟨p, ps, h1, h2, -⟩ := evReads_head h
    have : ∀ p ∈ evHeads, bareText p = p := by decide
    exact ⟨p, ps, h1, .inl (by rw [this p h2]; exact h2)⟩

theorem row_differ {v : Nat} {l l' : Str} {e : Event D} {x : Nat × Command D} (h : HeadReads v l e) (h' : CmdLineReads l' x) : ¬TextSame l l' := by
  intro hs
  obtain ⟨p, ps, h1, h2⟩ := head_pieces h
  obtain ⟨u, q, qs, g1, g2, g3, -⟩ := cmdLine_pieces h'
  have := hs.pieces (c := ',') (by decide) (by decide)
  rw [h1, g1] at this
  have e1 : bareText p = bareText u ++ q := by
    have hb : ∀ p ∈ cmdHeads, bareText p = p := by decide
    rw [← hb q g3, ← bareText_append]
    exact (List.cons.inj this).1
  rw [e1] at h2
  rcases h2 with h2 | h2
  · exact (cmdHead_not g2 g3).1 h2
  · exact (cmdHead_not g2 g3).2 h2

theorem row_same {v : Nat} {l l' : Str} {x y : Event D ⊕ Command D} (h : RowReads v l x) (h' : RowReads v l' y) (e : TextSame l l') : RowSame x y := by
  cases x with
  | inl x =>
    cases y with
    | inl y =>
      refine .head ?_
      have h : HeadReads v l x := h
      have h' : HeadReads v l' y := h'
      have cross : ∀ {s l : Str} {e : Event D}, EvReads v (splitOnC ',' l) e → ¬bareText (c!"//" ++ s) = bareText l := by
        intro s l x h hs
        obtain ⟨p, ps, h1⟩ := head_comment s
        obtain ⟨q, qs, g1, g2, -⟩ := evReads_head h
        have := TextSame.pieces (c := ',') (by decide) (by decide) (show TextSame _ _ from hs)
        rw [h1, g1] at this
        have hb : ∀ p ∈ evHeads, bareText p = p ∧ p.head? ≠ some '/' := by decide
        have e1 := (List.cons.inj this).1
        rw [(hb q g2).1] at e1
        exact (hb q g2).2 (by rw [← e1]; rfl)
      cases h with
      | comment s =>
        cases h' with
        | comment t =>
          refine .comment ?_
          have e : '/' :: '/' :: bareText s = '/' :: '/' :: bareText t := e
          simpa [TextSame] using e
        | event h' => exact absurd e (cross h')
      | event h =>
        cases h' with
        | comment t => exact absurd e.symm (cross h)
        | event h' => exact ev_same h h' (e.pieces (by decide) (by decide))
    | inr y =>
      obtain ⟨k, h'⟩ := h'
      exact absurd e (row_differ h h')
  | inr x =>
    obtain ⟨k, h⟩ := h
    cases y with
    | inl y => exact absurd e.symm (row_differ h' h)
    | inr y =>
      obtain ⟨k', h'⟩ := h'
      refine .command ?_
      obtain ⟨u, p, ps, h1, h2, h3, -, h4⟩ := cmdLine_pieces h
      obtain ⟨w, q, qs, g1, g2, g3, -, g4⟩ := cmdLine_pieces h'
      have hb : ∀ p ∈ cmdHeads, bareText p = p ∧ p.head? ≠ some '_' := by decide
      have e := e.pieces (c := ',') (by decide) (by decide)
      rw [h1, g1] at e
      obtain ⟨e1, e2⟩ := List.cons.inj e
      rw [bareText_append, bareText_append, (hb p h3).1, (hb q g3).1] at e1
      cases unders_split h2 g2 (hb p h3).2 (hb q g3).2 e1
      exact cmd_same h4 g4 (by rw [List.map_cons, List.map_cons, e2])

theorem row_clean {v : Nat} {l : Str} {x : Event D ⊕ Command D} (h : RowReads v l x) : cleanLine l ≠ [] := by
  cases x with
  | inl x =>
    have h : HeadReads v l x := h
    cases h with
    | comment s => exact cleanLine_mem (c := '/') (by decide) (by decide) (by simp)
    | event h =>
      obtain ⟨p, qs, h1, -, h2⟩ := evReads_head h
      refine cleanLine_mem (c := ',') (by decide) (by decide) (comma_of_pieces ?_)
      rw [h1]
      cases qs with
      | nil => exact absurd rfl h2
      | cons => simp
  | inr x =>
    obtain ⟨k, h⟩ := h
    obtain ⟨u, p, qs, h1, -, -, h2, -⟩ := cmdLine_pieces h
    refine cleanLine_mem (c := ',') (by decide) (by decide) (comma_of_pieces ?_)
    rw [h1]
    cases qs with
    | nil => exact absurd rfl h2
    | cons => simp

omit [UniLib] in
/-- Rows in the same order are events in the same order, with as many commands each. -/
theorem rows_events : ∀ {x y : List (Event D)}, Each RowSame (x.flatMap eventRows) (y.flatMap eventRows) → Each EventSame x y := by
  have cmds : ∀ {a b : List (Command D)} {x y : List (Event D)}, Each RowSame (a.map .inr ++ x.flatMap eventRows) (b.map .inr ++ y.flatMap eventRows) →
      Each CmdSame a b ∧ Each RowSame (x.flatMap eventRows) (y.flatMap eventRows) := by
    intro a
    induction a with
    | nil =>
      intro b x y h
      cases b with
      | nil => exact ⟨.nil, h⟩
      | cons c b =>
        cases x with
        | nil => simp only [List.map_nil, List.flatMap_nil, List.nil_append, List.map_cons, List.cons_append] at h; cases h
        | cons e x =>
          simp only [List.map_nil, List.flatMap_cons, List.nil_append, List.map_cons, List.cons_append, eventRows] at h
          cases h with | cons h _ => cases h
    | cons d a ih =>
      intro b x y h
      cases b with
      | nil =>
        cases y with
        | nil => simp only [List.map_nil, List.flatMap_nil, List.nil_append, List.map_cons, List.cons_append] at h; cases h
        | cons e y =>
          simp only [List.map_nil, List.flatMap_cons, List.nil_append, List.map_cons, List.cons_append, eventRows] at h
          cases h with | cons h _ => cases h
      | cons c b =>
        simp only [List.map_cons, List.cons_append] at h
        cases h with
        | cons h t =>
          obtain ⟨i1, i2⟩ := ih t
          cases h with
          | command h => exact ⟨.cons h i1, i2⟩
  intro x
  induction x with
  | nil =>
    intro y h
    cases y with
    | nil => exact .nil
    | cons e y => simp only [List.flatMap_nil, List.flatMap_cons, eventRows, List.cons_append] at h; cases h
  | cons a x ih =>
    intro y h
    cases y with
    | nil => simp only [List.flatMap_nil, List.flatMap_cons, eventRows, List.cons_append] at h; cases h
    | cons b y =>
      simp only [List.flatMap_cons, eventRows, List.cons_append] at h
      cases h with
      | cons h t =>
        obtain ⟨i1, i2⟩ := cmds t
        cases h with
        | head h => exact .cons ⟨h, i1⟩ (ih i2)

end

end

end Osu
