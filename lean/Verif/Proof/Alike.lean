/-
The texts of equal values.
-/
import Verif.Proof.Equality
import Verif.Proof.Tree
import Verif.Proof.StrEq
import Verif.Proof.StrEqEvents

namespace Osu
open SB Ev

variable {D : Type} [DecSame D] [DecLib D]

namespace Alike

theorem of_eq {a b : Str} (h : a = b) : Alike D a b := h ▸ .text a

theorem comma {a b a' b' : Str} (h : Alike D a b) (h' : Alike D a' b') : Alike D (a ++ [','] ++ a') (b ++ [','] ++ b') := by
  simpa using separated ',' (by decide) h h'

theorem colon {a b a' b' : Str} (h : Alike D a b) (h' : Alike D a' b') : Alike D (a ++ [':'] ++ a') (b ++ [':'] ++ b') := by
  simpa using separated ':' (by decide) h h'

theorem pipe {a b a' b' : Str} (h : Alike D a b) (h' : Alike D a' b') : Alike D (a ++ ['|'] ++ a') (b ++ ['|'] ++ b') := by
  simpa using separated '|' (by decide) h h'

theorem join {c : Char} (hc : c ∈ c!",:| \n") {l m : List Str} (h : Each (Alike D) l m) : Alike D (join [c] l) (join [c] m) := by
  induction h with
  | nil => exact .text _
  | @cons a b l m h t ih =>
    cases t with
    | nil => exact h
    | cons h' t' =>
      rw [join_cons_cons, join_cons_cons]
      simpa using separated c hc h ih

theorem each {α : Type} {eq : α → α → Bool} {f : α → Str} (H : ∀ a b, eq a b = true → Alike D (f a) (f b)) {x y : List α}
    (h : sameList eq x y = true) : Each (Alike D) (x.map f) (y.map f) := by
  induction x generalizing y with
  | nil => cases y <;> simp_all [sameList] <;> exact .nil
  | cons a x ih =>
    cases y with
    | nil => simp [sameList] at h
    | cons b y =>
      simp only [sameList, Bool.and_eq_true] at h
      exact .cons (H _ _ h.1) (ih h.2)

theorem same_refl (l : List Str) : Each (Alike D) l l := by
  induction l with
  | nil => exact .nil
  | cons a l ih => exact .cons (.text a) ih

end Alike

open Alike

theorem Decimal.same_shifted {v : Nat} (hv : 5 ≤ v) (x : Decimal D) : x.toStrShifted v = some x.toStr := by
  have : ¬ (3 ≤ v ∧ v ≤ 4) := by omega
  cases x <;> simp [Decimal.toStrShifted, Decimal.toStr, this]

theorem TimingPoint.alike {v : Nat} (hv : 5 ≤ v) {t u : TimingPoint D} (h : t.same u = true) :
    ∃ a b, t.shw v = some a ∧ u.shw v = some b ∧ Alike D a b := by
  simp only [TimingPoint.same, Bool.and_eq_true, decide_eq_true_eq, and_assoc] at h
  obtain ⟨h1, h2, h3, h4, h5, h6, h7, h8⟩ := h
  refine ⟨_, _, by rw [TimingPoint.shw, Decimal.same_shifted hv, Option.map_some], by rw [TimingPoint.shw, Decimal.same_shifted hv, Option.map_some], ?_⟩
  refine Alike.join (by decide) (.cons (.number h1) ?_)
  unfold TimingPoint.tailFields
  rw [h3, h4, h5, h6, h7, h8, List.append_assoc, List.append_assoc]
  exact .cons (.number h2) (same_refl _)

theorem HO.CurvePoint.alike {a b : HO.CurvePoint D} (h : a.same b = true) : Alike D a.shw b.shw := by
  simp only [HO.CurvePoint.same, Position.same, Bool.and_eq_true] at h
  exact colon (.number h.1) (.number h.2)

theorem sameList_nil_iff {α : Type} {eq : α → α → Bool} {x y : List α} (h : sameList eq x y = true) : x = [] ↔ y = [] := by
  cases x <;> cases y <;> simp_all [sameList]

theorem HitObject.alike {v : Nat} (hv : 5 ≤ v) {o p : HitObject D} (h : o.same p = true) :
    ∃ a b, o.shw v = some a ∧ p.shw v = some b ∧ Alike D a b := by
  simp only [HitObject.same, Position.same, Bool.and_eq_true, decide_eq_true_eq, and_assoc] at h
  obtain ⟨h1, h2, h3, h4, h5, h6, h7, h8⟩ := h
  obtain ⟨⟨ox, oy⟩, ot, op, on, oc, oh, os⟩ := o
  obtain ⟨⟨px, py⟩, pt, pp, pn, pc, ph, ps⟩ := p
  dsimp only at *
  subst h5 h6 h7 h8
  have hv3 : v ≠ 3 := by omega
  have head : ∀ q, Each (Alike D) [ox.toStr, oy.toStr, ot.toStr, q, oh.shw] [px.toStr, py.toStr, pt.toStr, q, oh.shw] := fun q =>
    .cons (.number h1) (.cons (.number h2) (.cons (.number h3) (same_refl _)))
  cases op <;> cases pp <;> simp only [HOParams.same, Bool.false_eq_true] at h4
  · refine ⟨_, _, by simp [HitObject.shw, Decimal.same_shifted hv, hv3]; rfl, by simp [HitObject.shw, Decimal.same_shifted hv, hv3]; rfl, ?_⟩
    exact Alike.join (by decide) (.append (head _) (same_refl _))
  · rename_i s t
    simp only [SlideParams.same, Bool.and_eq_true, decide_eq_true_eq, and_assoc] at h4
    obtain ⟨g1, g2, g3, g4, g5, g6, g7, g8⟩ := h4
    have hnil := sameList_nil_iff g2
    have hb : Alike D (join [','] (HitObject.sliderTail v ⟨ox, oy⟩ s os)) (join [','] (HitObject.sliderTail v ⟨px, py⟩ t os)) := by
      refine Alike.join (by decide) ?_
      unfold HitObject.sliderTail
      rw [g3, g5, g6, g7, g8, if_neg hv3, if_neg hv3]
      refine .append (.append (.append (.append ?_ (.cons (.text _) (.cons (.number g4) .nil))) (same_refl _)) (same_refl _)) (same_refl _)
      by_cases hs : s.curvePoints = []
      · rw [if_neg (by simpa using hs), if_neg (by simpa using hnil.1 hs)]; exact .nil
      · rw [if_pos hs, if_pos (fun h => hs (hnil.2 h))]
        exact .cons (Alike.join (by decide) (each (fun _ _ => HO.CurvePoint.alike) g2)) .nil
    have ha : ∀ q, Alike D (join [','] ([ox.toStr, oy.toStr, ot.toStr, q, oh.shw] ++ [s.curveType.shw]))
        (join [','] ([px.toStr, py.toStr, pt.toStr, q, oh.shw] ++ [t.curveType.shw])) := fun q => by
      rw [g1]
      exact Alike.join (by decide) (.append (head _) (same_refl _))
    refine ⟨_, _, by simp only [HitObject.shw, Decimal.same_shifted hv, Option.bind_some]; rfl, by simp only [HitObject.shw, Decimal.same_shifted hv, Option.bind_some]; rfl, ?_⟩
    by_cases hs : s.curvePoints = []
    · rw [if_neg (by simp [hs, hv3]), if_neg (by simp [hnil.1 hs, hv3])]
      exact comma (ha _) hb
    · rw [if_pos (.inr hs), if_pos (.inr fun h => hs (hnil.2 h))]
      exact pipe (ha _) hb
  · refine ⟨_, _, by simp only [HitObject.shw, Decimal.same_shifted hv, Option.bind_some, Option.map_some]; rfl, by simp only [HitObject.shw, Decimal.same_shifted hv, Option.bind_some, Option.map_some]; rfl, ?_⟩
    exact Alike.join (by decide) (.append (.append (head _) (.cons (.number h4) .nil)) (same_refl _))
  · refine ⟨_, _, by simp only [HitObject.shw, Decimal.same_shifted hv, Option.bind_some, Option.map_some]; rfl, by simp only [HitObject.shw, Decimal.same_shifted hv, Option.bind_some, Option.map_some]; rfl, ?_⟩
    exact colon (Alike.join (by decide) (.append (head _) (.cons (.number h4) .nil))) (.text _)

theorem continuing_alike {x y : Decimal D} {l m : List (Decimal D)} {a : Str} (h : x.same y = true) (hl : sameList Decimal.same l m = true) :
    Alike D (a ++ [','] ++ x.toStr ++ Command.continuingToStr Decimal.toStr l) (a ++ [','] ++ y.toStr ++ Command.continuingToStr Decimal.toStr m) := by
  have hxy := comma (.text a) (.number h)
  have hnil := sameList_nil_iff hl
  unfold Command.continuingToStr
  by_cases hs : l = []
  · rw [hs, hnil.1 hs]
    simpa using hxy
  · rw [if_neg (by simpa using hs), if_neg (by simpa using fun h => hs (hnil.2 h))]
    exact .separated ',' (by decide) hxy (Alike.join (by decide) (each (fun _ _ => .number) hl))

theorem pieces_alike {l m : List (Decimal D × Option (Decimal D))}
    (h : sameList (fun a b => a.1.same b.1 && sameOpt Decimal.same a.2 b.2) l m = true) :
    Each (Alike D) (ContinuingFields.pieces Decimal.toStr l) (ContinuingFields.pieces Decimal.toStr m) := by
  induction l generalizing m with
  | nil => cases m <;> simp_all [sameList] <;> exact .nil
  | cons a l ih =>
    cases m with
    | nil => simp [sameList] at h
    | cons b m =>
      simp only [sameList, Bool.and_eq_true] at h
      obtain ⟨⟨h1, h2⟩, h3⟩ := h
      obtain ⟨a, a'⟩ := a
      obtain ⟨b, b'⟩ := b
      cases a' <;> cases b' <;> simp only [sameOpt, Bool.false_eq_true] at h2
      · exact .cons (.number h1) (ih h3)
      · exact .cons (.number h1) (.cons (.number h2) (ih h3))

theorem pairs_alike {a : Str} {x y : ContinuingFields (Decimal D)} (h : x.same Decimal.same y = true) :
    Alike D (a ++ [','] ++ x.shw Decimal.toStr) (a ++ [','] ++ y.shw Decimal.toStr) := by
  simp only [ContinuingFields.same, Bool.and_eq_true, and_assoc] at h
  exact comma (.text a) (Alike.join (by decide) (.cons (.number h.1) (.cons (.number h.2.1) (pieces_alike h.2.2))))

theorem body_alike {c e : Command D} (h : c.same e = true) : Alike D c.body e.body := by
  obtain ⟨t, p⟩ := c
  obtain ⟨u, q⟩ := e
  simp only [Command.same, Bool.and_eq_true, decide_eq_true_eq] at h
  obtain ⟨rfl, h⟩ := h
  cases p <;> cases q <;> simp only [propsSame, Bool.and_eq_true, decide_eq_true_eq, and_assoc, Bool.false_eq_true] at h
  case loop.loop => simp only [Command.body, h.1]; exact .text _
  case trigger.trigger => simp only [Command.body, h.1, h.2.1, h.2.2.1]; exact .text _
  case colour.colour => simp only [Command.body, h.1, h.2.1, h.2.2]; exact .text _
  case parameter.parameter => simp only [Command.body, h.1, h.2.1, h.2.2.1, h.2.2.2]; exact .text _
  case move.move | vectorScale.vectorScale => rw [Command.body, Command.body, h.1, h.2.1]; exact pairs_alike h.2.2
  all_goals rw [Command.body, Command.body, h.1, h.2.1]; exact continuing_alike h.2.2.1 h.2.2.2

omit [DecLib D] in
theorem header_alike {c e : Command D} (h : c.same e = true) : c.header = e.header := by
  obtain ⟨t, p⟩ := c
  obtain ⟨u, q⟩ := e
  simp only [Command.same, Bool.and_eq_true] at h
  replace h := h.2
  cases p <;> cases q <;> simp only [propsSame, Bool.false_eq_true] at h <;> rfl

theorem cmdLine_alike {c e : Command D} (h : c.same e = true) (k : Nat) : Alike D (cmdLine [] k c) (cmdLine [] k e) := by
  unfold cmdLine Command.toStrVars
  rw [header_alike h, Command.variableReplace, Command.variableReplace, ← List.append_assoc, ← List.append_assoc, ← List.append_assoc,
    ← List.append_assoc]
  exact comma (.text _) (body_alike h)

mutual
theorem cmd_lines_alike : ∀ (c e : Command D) (k : Nat), c.same e = true →
    Each (Alike D) (listLines [] (c.listing k)) (listLines [] (e.listing k))
  | .mk t p, .mk u q, k, h => by
    rw [listLines_cmd, listLines_cmd]
    refine .cons (cmdLine_alike h k) ?_
    simp only [Command.same, Bool.and_eq_true] at h
    exact props_lines_alike p q (k + 1) h.2
theorem props_lines_alike : ∀ (p q : CmdProps D (Command D)) (k : Nat), propsSame p q = true →
    Each (Alike D) (listLines [] (CmdProps.listing k p)) (listLines [] (CmdProps.listing k q))
  | .loop n c, q, k, h => by
    cases q <;> simp only [propsSame, Bool.and_eq_true, Bool.false_eq_true] at h
    simp only [CmdProps.listing]
    exact cmds_lines_alike c _ k h.2
  | .trigger t e g c, q, k, h => by
    cases q <;> simp only [propsSame, Bool.and_eq_true, Bool.false_eq_true] at h
    simp only [CmdProps.listing]
    exact cmds_lines_alike c _ k h.2
  | .fade .., q, k, h | .move .., q, k, h | .moveX .., q, k, h | .moveY .., q, k, h | .scale .., q, k, h | .vectorScale .., q, k, h
  | .rotate .., q, k, h | .colour .., q, k, h | .parameter .., q, k, h => by
    cases q <;> simp only [propsSame, Bool.false_eq_true] at h
    simp only [CmdProps.listing]
    exact .nil
theorem cmds_lines_alike : ∀ (c e : List (Command D)) (k : Nat), cmdsSame c e = true →
    Each (Alike D) (listLines [] (listing k c)) (listLines [] (listing k e))
  | [], [], _, _ => by rw [listing_nil]; exact .nil
  | [], _ :: _, _, h => by simp [cmdsSame] at h
  | _ :: _, [], _, h => by simp [cmdsSame] at h
  | c :: cs, e :: es, k, h => by
    simp only [cmdsSame, Bool.and_eq_true] at h
    rw [listing_cons, listing_cons, listLines_append, listLines_append]
    exact .append (cmd_lines_alike c e k h.1) (cmds_lines_alike cs es k h.2)
end

theorem withCmds_alike {a b : Str} (h : Alike D a b) {c e : List (Command D)} (hc : cmdsSame c e = true) :
    ∃ s t, withCmds [] a c = some s ∧ withCmds [] b e = some t ∧ Alike D s t := by
  have hl := cmds_lines_alike c e 1 hc
  have ne : ∀ (l : List (Nat × Command D)) x xs, listLines [] l = x :: xs → (join ['\n'] (x :: xs)).isEmpty = false := by
    intro l x xs h
    have : x ≠ [] := by
      have : x ∈ listLines [] l := by rw [h]; exact List.mem_cons_self
      unfold listLines at this
      obtain ⟨y, -, rfl⟩ := List.mem_map.1 this
      simp [cmdLine, Command.toStrVars]
    cases xs <;> cases x <;> simp_all [join]
  unfold withCmds cmdsToStr
  rw [printCmds_eq, printCmds_eq]
  refine ⟨_, _, rfl, rfl, ?_⟩
  cases hx : listLines [] (listing 1 c) with
  | nil =>
    rw [hx] at hl
    cases hy : listLines [] (listing 1 e) with
    | nil => simpa [join] using h
    | cons y ys => rw [hy] at hl; cases hl
  | cons x xs =>
    rw [hx] at hl
    cases hy : listLines [] (listing 1 e) with
    | nil => rw [hy] at hl; cases hl
    | cons y ys =>
      rw [hy] at hl
      dsimp only
      rw [ne _ _ _ hx, ne _ _ _ hy]
      exact .separated '\n' (by decide) h (Alike.join (by decide) hl)

theorem positionStr_alike {a b : Str} (h : Alike D a b) {x y : Option (Position D)} (hx : sameOpt Position.same x y = true) :
    Alike D (a ++ positionStr x) (b ++ positionStr y) := by
  cases x <;> cases y <;> simp only [sameOpt, Bool.false_eq_true] at hx
  · simpa [positionStr] using h
  · simp only [Position.same, Bool.and_eq_true] at hx
    exact .separated ',' (by decide) h (comma (.number hx.1) (.number hx.2))

theorem timeToStr_now {v : Nat} (hv : 5 ≤ v) (t : Int32) : Ev.timeToStr v t = some (i32ToStr t) := by
  have : ¬ (3 ≤ v ∧ v ≤ 4) := by omega
  simp [Ev.timeToStr, this]

/-- Both nothing, or texts that are alike. -/
inductive AlikeO (D : Type) [DecSame D] [DecLib D] : Option Str → Option Str → Prop
  | none : AlikeO D none none
  | some {a b : Str} (h : Alike D a b) : AlikeO D (some a) (some b)

def PlainPath (e : Event D) : Prop := ∀ a, pathOf e = some a → ',' ∉ a ∧ '\n' ∉ a

theorem Ev.Event.alike {v : Nat} (hv : 5 ≤ v) {e f : Event D} (h : e.same f = true) (he : PlainPath e) (hf : PlainPath f) :
    ∃ a b, e.shw v [] = some a ∧ f.shw v [] = some b ∧ AlikeO D a b := by
  have lift : ∀ {x y : Option Str}, (∃ s t, x = some s ∧ y = some t ∧ Alike D s t) →
      ∃ a b, x.map some = some a ∧ y.map some = some b ∧ AlikeO D a b := by
    rintro _ _ ⟨s, t, rfl, rfl, h⟩
    exact ⟨_, _, rfl, rfl, .some h⟩
  cases e <;> cases f <;> simp only [Event.same, Bool.false_eq_true] at h
  case comment.comment => rw [of_decide_eq_true h]; exact ⟨_, _, rfl, rfl, .some (.text _)⟩
  case background.background b c =>
    simp only [Background.same, Bool.and_eq_true, decide_eq_true_eq, and_assoc] at h
    obtain ⟨h1, h2, h3, h4⟩ := h
    refine lift (withCmds_alike ?_ h4)
    unfold Background.shwCmd
    rw [h1]
    exact positionStr_alike (comma (.text _) (.path h2 (he _ rfl) (hf _ rfl))) h3
  case video.video b c =>
    simp only [Video.same, Bool.and_eq_true, decide_eq_true_eq, and_assoc] at h
    obtain ⟨h1, h2, h3, h4, h5⟩ := h
    simp only [Event.shw, Video.shwCmd, timeToStr_now hv, Option.map_some, Option.bind_some, h1, h5]
    refine lift (withCmds_alike ?_ h4)
    exact positionStr_alike (comma (.text _) (.path h2 (he _ rfl) (hf _ rfl))) h3
  case break_.break_ b c =>
    rw [of_decide_eq_true h]
    refine lift ?_
    unfold Break.shw
    rw [timeToStr_now hv, timeToStr_now hv]
    exact ⟨_, _, rfl, rfl, .text _⟩
  case colourTransformation.colourTransformation b c =>
    rw [of_decide_eq_true h]
    simp only [Event.shw, ColourTransformation.shw]
    split
    · rw [timeToStr_now hv]; exact ⟨_, _, rfl, rfl, .some (.text _)⟩
    · exact ⟨_, _, rfl, rfl, .none⟩
  case spriteLegacy.spriteLegacy b c | animationLegacy.animationLegacy b c =>
    simp only [SpriteLegacy.same, Bool.and_eq_true, decide_eq_true_eq, and_assoc] at h
    obtain ⟨h1, h2, h3, h4, h5⟩ := h
    refine lift (withCmds_alike ?_ h5)
    unfold SpriteLegacy.shwCmd
    rw [h1, h2]
    exact positionStr_alike (comma (.text _) (.path h3 (he _ rfl) (hf _ rfl))) h4
  case sampleLegacy.sampleLegacy b c =>
    simp only [SampleLegacy.same, Bool.and_eq_true, decide_eq_true_eq, and_assoc] at h
    obtain ⟨h1, h2, h3, h4, h5⟩ := h
    refine lift (withCmds_alike ?_ h5)
    unfold SampleLegacy.shwCmd
    rw [h2, h4]
    have : Alike D (c!"6," ++ b.time.toStr ++ [','] ++ c.layer.shw ++ [','] ++ FilePath.toStr b.fileName)
        (c!"6," ++ c.time.toStr ++ [','] ++ c.layer.shw ++ [','] ++ FilePath.toStr c.fileName) :=
      comma (comma (.separated (a := c!"6") ',' (by decide) (.text _) (.number h1)) (.text _)) (.path h3 (he _ rfl) (hf _ rfl))
    cases c.volume with
    | none => simpa using this
    | some w => exact .separated ',' (by decide) this (.text _)
  case object.object b c =>
    simp only [Object.same, Position.same, Bool.and_eq_true, decide_eq_true_eq, and_assoc] at h
    obtain ⟨h1, h2, h3, h3', h4, h5⟩ := h
    refine lift (withCmds_alike ?_ h5)
    obtain ⟨bl, bo, ⟨bx, by'⟩, bt, bc⟩ := b
    obtain ⟨cl, co, ⟨cx, cy⟩, ct, cc⟩ := c
    dsimp only at *
    subst h1 h2
    unfold Object.shwCmd
    cases bt <;> cases ct <;> simp only [ObjectType.same, Bool.and_eq_true, decide_eq_true_eq, Bool.false_eq_true, and_assoc] at h4 <;> dsimp only
    · exact comma (comma (.text _) (.path h4 (he _ rfl) (hf _ rfl))) (comma (.number h3) (.number h3'))
    · obtain ⟨g1, g2, g3, g4⟩ := h4
      subst g1 g3
      exact comma (comma (comma (comma (comma (.text _) (.path g4 (he _ rfl) (hf _ rfl))) (comma (.number h3) (.number h3')))
        (.text _)) (.number (x := .left _) (y := .left _) g2)) (.text _)
  case audioSample.audioSample b c =>
    simp only [AudioSample.same, Bool.and_eq_true, decide_eq_true_eq, and_assoc] at h
    obtain ⟨h1, h2, h3, h4⟩ := h
    refine ⟨_, _, rfl, rfl, .some ?_⟩
    unfold AudioSample.shw
    rw [h1, h2, h4]
    exact comma (comma (.text _) (.path h3 (he _ rfl) (hf _ rfl))) (.text _)

omit [DecSame D] [DecLib D] in
theorem mapM_each {α β : Type} {R : β → β → Prop} {f : α → Option β} {l m : List α}
    (h : Each (fun x y => ∃ a b, f x = some a ∧ f y = some b ∧ R a b) l m) :
    ∃ s t, l.mapM f = some s ∧ m.mapM f = some t ∧ Each R s t := by
  induction h with
  | nil => exact ⟨[], [], rfl, rfl, .nil⟩
  | cons h t ih =>
    obtain ⟨a, b, h1, h2, h3⟩ := h
    obtain ⟨s, t, h4, h5, h6⟩ := ih
    exact ⟨a :: s, b :: t, by simp [List.mapM_cons, h1, h4], by simp [List.mapM_cons, h2, h5], .cons h3 h6⟩

omit [DecSame D] [DecLib D] in
theorem sameList_each {α : Type} {eq : α → α → Bool} {l m : List α} (h : sameList eq l m = true) :
    Each (fun x y => x ∈ l ∧ y ∈ m ∧ eq x y = true) l m := by
  induction l generalizing m with
  | nil => cases m <;> simp_all [sameList] <;> exact .nil
  | cons a l ih =>
    cases m with
    | nil => simp [sameList] at h
    | cons b m =>
      simp only [sameList, Bool.and_eq_true] at h
      exact .cons ⟨List.mem_cons_self, List.mem_cons_self, h.1⟩
        ((ih h.2).mono fun _ _ h => ⟨List.mem_cons_of_mem _ h.1, List.mem_cons_of_mem _ h.2.1, h.2.2⟩)

theorem each_filterMap {l m : List (Option Str)} (h : Each (AlikeO D) l m) : Each (Alike D) (l.filterMap id) (m.filterMap id) := by
  induction h with
  | nil => exact .nil
  | cons h t ih =>
    cases h with
    | none => exact ih
    | some h => exact .cons h ih

theorem printLinesP_alike {α : Type} {f : α → Option Str} {l m : List α} {eq : α → α → Bool} (h : sameList eq l m = true)
    (H : ∀ x y, eq x y = true → ∃ a b, f x = some a ∧ f y = some b ∧ Alike D a b) :
    ∃ a b, printLinesP f l = some a ∧ printLinesP f m = some b ∧ Alike D a b := by
  obtain ⟨s, t, h1, h2, h3⟩ := mapM_each ((sameList_each h).mono fun x y h => H x y h.2.2)
  refine ⟨_, _, by rw [printLinesP, h1, Option.map_some], by rw [printLinesP, h2, Option.map_some], Alike.join (by decide) h3⟩

theorem events_alike {v : Nat} (hv : 5 ≤ v) {l m : List (Event D)} (h : sameList Event.same l m = true) (hl : ∀ e ∈ l, PlainPath e)
    (hm : ∀ e ∈ m, PlainPath e) : ∃ a b, Events.shw v l = some a ∧ Events.shw v m = some b ∧ Alike D a b := by
  obtain ⟨s, t, h1, h2, h3⟩ := mapM_each ((sameList_each h).mono fun x y h => Event.alike hv h.2.2 (hl x h.1) (hm y h.2.1))
  refine ⟨_, _, by rw [Events.shw, Events.shwVars, h1, Option.map_some], by rw [Events.shw, Events.shwVars, h2, Option.map_some],
    Alike.join (by decide) (each_filterMap h3)⟩

theorem section_alike {S : Schema} {eq : (k : S.Key) → S.Val k → S.Val k → Bool} {v : Nat} {x y : S.Section} (h : S.same eq x y = true)
    (H : ∀ k a b, x k = some a → y k = some b → eq k a b = true →
      AlikeO D ((S.shw k v a).map fun t => S.name k ++ [':'] ++ S.spacing v t ++ t)
        ((S.shw k v b).map fun t => S.name k ++ [':'] ++ S.spacing v t ++ t)) : Alike D (S.toStr v x) (S.toStr v y) := by
  unfold Schema.toStr
  unfold Schema.same at h
  refine Alike.join (by decide) ?_
  generalize S.keys = ks at h
  induction ks with
  | nil => exact .nil
  | cons k ks ih =>
    simp only [List.all_cons, Bool.and_eq_true] at h
    have hk : AlikeO D (S.fieldStr v x k) (S.fieldStr v y k) := by
      unfold Schema.fieldStr
      have h1 := h.1
      cases hx : x k <;> cases hy : y k <;> rw [hx, hy] at h1 <;> simp only [sameOpt, Bool.false_eq_true] at h1
      · exact .none
      · rename_i a b
        have := H k a b hx hy h1
        cases ha : S.shw k v a <;> cases hb : S.shw k v b <;> rw [ha, hb] at this <;> simp only [ha, hb] <;> exact this
    have := ih h.2
    cases hx : S.fieldStr v x k <;> cases hy : S.fieldStr v y k <;> rw [hx, hy] at hk <;> cases hk
    · rw [List.filterMap_cons_none hx, List.filterMap_cons_none hy]; exact this
    · rename_i hk
      rw [List.filterMap_cons_some hx, List.filterMap_cons_some hy]; exact .cons hk this

theorem AlikeO.refl (x : Option Str) : AlikeO D x x := by
  cases x with
  | none => exact .none
  | some s => exact .some (.text s)

theorem spaced_alike {n a b : Str} (h : Alike D a b) : Alike D (n ++ [':'] ++ [' '] ++ a) (n ++ [':'] ++ [' '] ++ b) := by
  simpa using separated (a := n ++ [':']) ' ' (by decide) (.text _) h

theorem general_alike {v : Nat} {x y : (General D).Section} (h : (General D).same GKey.same x y = true)
    (hx : ∀ a : Str, x .audioFilename = some a → '\n' ∉ a) (hy : ∀ a : Str, y .audioFilename = some a → '\n' ∉ a) :
    Alike D ((General D).toStr v x) ((General D).toStr v y) := by
  refine section_alike h fun k a b ha hb hab => ?_
  cases k
  case audioFilename => exact .some (.audio hab (hx a ha) (hy b hb))
  case stackLeniency => exact .some (spaced_alike (.number hab))
  case editorDistanceSpacing =>
    show AlikeO D (Option.map _ (if v > 5 then none else some (Decimal.toStr (D := D) a))) (Option.map _ (if v > 5 then none else some (Decimal.toStr (D := D) b)))
    split
    · exact .none
    · exact .some (spaced_alike (.number hab))
  all_goals
    simp only [GKey.same, decide_eq_true_eq] at hab
    subst hab
    exact .refl _

theorem editor_alike {v : Nat} {x y : (Editor D).Section} (h : (Editor D).same EKey.same x y = true) :
    Alike D ((Editor D).toStr v x) ((Editor D).toStr v y) := by
  refine section_alike h fun k a b ha hb hab => ?_
  cases k
  case distanceSpacing | beatDivisor | timelineZoom => exact .some (spaced_alike (.number hab))
  all_goals
    simp only [EKey.same, decide_eq_true_eq] at hab
    subst hab
    exact .refl _

theorem metadata_alike {v : Nat} {x y : Metadata.Section} (h : Metadata.same MKey.same x y = true) :
    Alike D (Metadata.toStr v x) (Metadata.toStr v y) := by
  refine section_alike h fun k a b ha hb hab => ?_
  cases k
  all_goals
    have hab := (MKey.same_iff _ _ _).1 hab
    subst hab
    exact .refl _

theorem difficulty_alike {v : Nat} (hv : 5 ≤ v) {x y : (Difficulty D).Section} (h : (Difficulty D).same (fun _ => Decimal.same) x y = true) :
    Alike D ((Difficulty D).toStr v x) ((Difficulty D).toStr v y) := by
  have hs : ∀ t, diffSpacing v t = [] := fun t => if_neg (by omega)
  refine section_alike h fun k a b ha hb hab => ?_
  show AlikeO D (some (DKey.name k ++ [':'] ++ diffSpacing v (Decimal.toStr (D := D) a) ++ Decimal.toStr (D := D) a))
    (some (DKey.name k ++ [':'] ++ diffSpacing v (Decimal.toStr (D := D) b) ++ Decimal.toStr (D := D) b))
  rw [hs, hs, List.append_nil]
  exact .some (colon (.text _) (.number hab))

def AlikeP (D : Type) [DecSame D] [DecLib D] (p q : Str × Str) : Prop := p.1 = q.1 ∧ Alike D p.2 q.2

theorem pushSection_alike {α : Type} {n : Str} {x y : Option α} {f g : α → Option (Option Str)} {eq : α → α → Bool} (h : sameOpt eq x y = true)
    (H : ∀ a b, x = some a → y = some b → eq a b = true → ∃ s t, f a = some s ∧ g b = some t ∧ AlikeO D s t) :
    ∃ l m, pushSection n x f = some l ∧ pushSection n y g = some m ∧ Each (AlikeP D) l m := by
  cases x <;> cases y <;> simp only [sameOpt, Bool.false_eq_true] at h
  · exact ⟨[], [], rfl, rfl, .nil⟩
  · rename_i a b
    obtain ⟨s, t, h1, h2, h3⟩ := H a b rfl rfl h
    cases h3 with
    | none => exact ⟨[], [], by simp [pushSection, h1], by simp [pushSection, h2], .nil⟩
    | @some s t h3 => exact ⟨[(n, s)], [(n, t)], by simp [pushSection, h1], by simp [pushSection, h2], .cons ⟨rfl, h3⟩ .nil⟩

theorem sections_join {l m : List (Str × Str)} (h : Each (AlikeP D) l m) :
    Alike D (Osu.join ['\n', '\n'] (l.map fun p => ['['] ++ p.1 ++ c!"]\n" ++ p.2)) (Osu.join ['\n', '\n'] (m.map fun p => ['['] ++ p.1 ++ c!"]\n" ++ p.2)) := by
  have one : ∀ {p q : Str × Str}, AlikeP D p q → Alike D (['['] ++ p.1 ++ c!"]\n" ++ p.2) (['['] ++ q.1 ++ c!"]\n" ++ q.2) := by
    intro p q h
    have := separated (a := ['['] ++ p.1 ++ [']']) '\n' (by decide) (.text _) h.2
    rw [← h.1]
    simpa using this
  induction h with
  | nil => exact .text _
  | @cons a b l m h t ih =>
    cases t with
    | nil => exact one h
    | cons h' t' =>
      simp only [List.map_cons, join_cons_cons]
      have := separated '\n' (by decide) (one h) (separated (a := []) '\n' (by decide) (.text _) ih)
      simp only [List.map_cons] at this
      simpa using this

theorem OsuFile.alike {f g : OsuFile D} (hv : 5 ≤ f.version) (h : f.same g = true) (hf : PlainPaths f) (hg : PlainPaths g) :
    ∃ s t, f.shw = some s ∧ g.shw = some t ∧ Alike D s t := by
  simp only [OsuFile.same, Bool.and_eq_true, decide_eq_true_eq, and_assoc] at h
  obtain ⟨h1, h2, h3, h4, h5, h6, h7, h8, h9, h10⟩ := h
  obtain ⟨a1, b1, p1, q1, r1⟩ := pushSection_alike (n := c!"General") (f := fun x => some (some ((General D).toStr f.version x)))
    (g := fun x => some (some ((General D).toStr f.version x))) h2
    fun a b ha hb h => ⟨_, _, rfl, rfl, .some (general_alike h (hf.audio a ha) (hg.audio b hb))⟩
  obtain ⟨a2, b2, p2, q2, r2⟩ := pushSection_alike (n := c!"Editor") (f := fun x => some (some ((Editor D).toStr f.version x)))
    (g := fun x => some (some ((Editor D).toStr f.version x))) h3
    fun a b ha hb h => ⟨_, _, rfl, rfl, .some (editor_alike h)⟩
  obtain ⟨a3, b3, p3, q3, r3⟩ := pushSection_alike (D := D) (n := c!"Metadata") (f := fun x => some (some (Metadata.toStr f.version x)))
    (g := fun x => some (some (Metadata.toStr f.version x))) h5
    fun a b ha hb h => ⟨_, _, rfl, rfl, .some (metadata_alike h)⟩
  obtain ⟨a4, b4, p4, q4, r4⟩ := pushSection_alike (n := c!"Difficulty") (f := fun x => some (some ((Difficulty D).toStr f.version x)))
    (g := fun x => some (some ((Difficulty D).toStr f.version x))) h6
    fun a b ha hb h => ⟨_, _, rfl, rfl, .some (difficulty_alike hv h)⟩
  have lift : ∀ {x y : Option Str}, (∃ s t, x = some s ∧ y = some t ∧ Alike D s t) →
      ∃ a b, x.map some = some a ∧ y.map some = some b ∧ AlikeO D a b := by
    rintro _ _ ⟨s, t, rfl, rfl, h⟩
    exact ⟨_, _, rfl, rfl, .some h⟩
  obtain ⟨a5, b5, p5, q5, r5⟩ := pushSection_alike (n := c!"Events") (f := fun x => (Events.shw f.version x).map some)
    (g := fun x => (Events.shw f.version x).map some) h7
    fun a b ha hb h => lift (events_alike hv h (hf.events a ha) (hg.events b hb))
  obtain ⟨a6, b6, p6, q6, r6⟩ := pushSection_alike (n := c!"TimingPoints") (f := fun x => (TimingPoints.shw f.version x).map some)
    (g := fun x => (TimingPoints.shw f.version x).map some) h8
    fun a b ha hb h => lift (printLinesP_alike h fun x y => TimingPoint.alike hv)
  obtain ⟨a7, b7, p7, q7, r7⟩ : ∃ l m, pushSection c!"Colours" f.colours (fun x => some (Colours.shw f.version x)) = some l ∧
      pushSection c!"Colours" g.colours (fun x => some (Colours.shw f.version x)) = some m ∧ Each (AlikeP D) l m := by
    rw [h9]
    have : ∀ l : List (Str × Str), Each (AlikeP D) l l := by
      intro l
      induction l with
      | nil => exact .nil
      | cons a l ih => exact .cons ⟨rfl, .text _⟩ ih
    cases g.colours with
    | none => exact ⟨_, _, rfl, rfl, .nil⟩
    | some c => exact ⟨_, _, rfl, rfl, this _⟩
  obtain ⟨a8, b8, p8, q8, r8⟩ := pushSection_alike (n := c!"HitObjects") (f := fun x => (HitObjects.shw f.version x).map some)
    (g := fun x => (HitObjects.shw f.version x).map some) h10
    fun a b ha hb h => lift (printLinesP_alike h fun x y => HitObject.alike hv)
  refine ⟨_, _, by simp only [OsuFile.shw, p1, p2, p3, p4, p5, p6, p7, p8]; rfl, by simp only [OsuFile.shw, ← h1, q1, q2, q3, q4, q5, q6, q7, q8]; rfl, ?_⟩
  have := sections_join ((((((((r1.append r2).append r3).append r4).append r5).append r6).append r7).append r8))
  have := separated (a := c!"osu file format v" ++ natToStr f.version) '\n' (by decide) (.text _) (separated (a := []) '\n' (by decide) (.text _) this)
  simpa using this

end Osu
