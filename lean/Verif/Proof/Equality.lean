/-
Lemmas about `==`: it holds when some respelling that identifies exactly the equal numbers and paths gives the same value.
-/
import Verif.Model.Equality
import Verif.Spec.Equality
import Verif.Proof.Dec96
import Verif.Props.Sections

namespace Osu
open SB Ev

namespace Dec96

/-- Without the zeros at the end of the fraction. -/
def dropZeros (neg : Bool) : Nat → Nat → Dec96
  | m, 0 => ⟨neg, m, 0⟩
  | m, s + 1 => if m % 10 = 0 then dropZeros neg (m / 10) s else ⟨neg, m, s + 1⟩

def norm (d : Dec96) : Dec96 := if d.mant = 0 then ⟨false, 0, 0⟩ else dropZeros d.neg d.mant d.scale

/-- Equality of the values. -/
def eqv (a b : Dec96) : Bool := decide (a.toInt * 10 ^ b.scale = b.toInt * 10 ^ a.scale)

/-- No zero at the end of the fraction, and one zero only. -/
def Reduced (d : Dec96) : Prop := (d.scale = 0 ∨ d.mant % 10 ≠ 0) ∧ (d.mant = 0 → d = ⟨false, 0, 0⟩)

theorem dropZeros_value (neg : Bool) (s : Nat) : ∀ m, (dropZeros neg m s).neg = neg ∧ (dropZeros neg m s).mant * 10 ^ s = m * 10 ^ (dropZeros neg m s).scale ∧
    ((dropZeros neg m s).scale = 0 ∨ (dropZeros neg m s).mant % 10 ≠ 0) ∧ (m ≠ 0 → (dropZeros neg m s).mant ≠ 0) := by
  induction s with
  | zero => intro m; simp [dropZeros]
  | succ s ih =>
    intro m
    unfold dropZeros
    split
    · rename_i h
      obtain ⟨h1, h2, h3, h4⟩ := ih (m / 10)
      refine ⟨h1, ?_, h3, fun hm => h4 (by omega)⟩
      rw [Nat.pow_succ, ← Nat.mul_assoc, h2]
      have : m = m / 10 * 10 := by omega
      calc m / 10 * 10 ^ (dropZeros neg (m / 10) s).scale * 10 = (m / 10 * 10) * 10 ^ (dropZeros neg (m / 10) s).scale := by
            rw [Nat.mul_assoc, Nat.mul_comm (10 ^ _), ← Nat.mul_assoc]
        _ = _ := by rw [← this]
    · rename_i h
      exact ⟨rfl, rfl, .inr h, id⟩

theorem norm_value (d : Dec96) : (norm d).toInt * 10 ^ d.scale = d.toInt * 10 ^ (norm d).scale := by
  unfold norm
  split
  · rename_i h
    simp [toInt, h]
  · obtain ⟨h1, h2, -, -⟩ := dropZeros_value d.neg d.scale d.mant
    have h2 : ((dropZeros d.neg d.mant d.scale).mant : Int) * 10 ^ d.scale = d.mant * 10 ^ (dropZeros d.neg d.mant d.scale).scale := by
      exact_mod_cast h2
    unfold toInt
    rw [h1]
    split
    · rw [Int.neg_mul, Int.neg_mul, h2]
    · exact h2

theorem norm_reduced (d : Dec96) : (norm d).Reduced := by
  unfold norm
  split
  · exact ⟨.inl rfl, fun _ => rfl⟩
  · rename_i h
    obtain ⟨-, -, h3, h4⟩ := dropZeros_value d.neg d.scale d.mant
    exact ⟨h3, fun h0 => absurd h0 (h4 h)⟩

theorem Reduced.eq {a b : Dec96} (ha : a.Reduced) (hb : b.Reduced) (h : a.toInt * 10 ^ b.scale = b.toInt * 10 ^ a.scale) : a = b := by
  have key : ∀ {x y : Dec96}, x.Reduced → x.mant * 10 ^ y.scale = y.mant * 10 ^ x.scale → x.scale ≤ y.scale := by
    intro x y hx hxy
    apply Nat.le_of_not_lt
    intro hlt
    obtain ⟨k, hk⟩ : ∃ k, x.scale = y.scale + (k + 1) := ⟨x.scale - y.scale - 1, by omega⟩
    rw [hk, Nat.pow_add, Nat.mul_comm (10 ^ _) (10 ^ (k + 1)), ← Nat.mul_assoc] at hxy
    have := Nat.eq_of_mul_eq_mul_right (Nat.pow_pos (by omega)) hxy
    rcases hx.1 with h0 | h0
    · omega
    · rw [this, Nat.pow_succ, ← Nat.mul_assoc] at h0
      omega
  have hab : a.mant * 10 ^ b.scale = b.mant * 10 ^ a.scale := by
    have := congrArg Int.natAbs h
    simp only [Int.natAbs_mul, Int.natAbs_pow] at this
    have h1 : ∀ d : Dec96, d.toInt.natAbs = d.mant := by
      intro d; unfold toInt; split <;> simp
    rw [h1, h1] at this
    exact this
  have hs : a.scale = b.scale := Nat.le_antisymm (key ha hab) (key hb hab.symm)
  rw [hs] at hab h
  have hm := Nat.eq_of_mul_eq_mul_right (Nat.pow_pos (by omega)) hab
  have hi : a.toInt = b.toInt := Int.eq_of_mul_eq_mul_right (Int.ne_of_gt (Int.pow_pos (by omega))) h
  by_cases h0 : a.mant = 0
  · rw [ha.2 h0, hb.2 (hm ▸ h0)]
  · cases a with | mk an am as =>
    cases b with | mk bn bm bs =>
    simp only at hs hm h0
    subst hs hm
    simp only [toInt] at hi
    cases an <;> cases bn <;> simp at hi ⊢ <;> omega

theorem eqv_iff (a b : Dec96) : eqv a b = true ↔ norm a = norm b := by
  have hp : ∀ n, (10 : Int) ^ n ≠ 0 := fun n => Int.ne_of_gt (Int.pow_pos (by omega))
  have ha := norm_value a
  have hb := norm_value b
  unfold eqv
  rw [decide_eq_true_eq]
  constructor
  · intro h
    refine Reduced.eq (norm_reduced a) (norm_reduced b) ?_
    apply Int.eq_of_mul_eq_mul_right (hp a.scale)
    apply Int.eq_of_mul_eq_mul_right (hp b.scale)
    calc (norm a).toInt * 10 ^ (norm b).scale * 10 ^ a.scale * 10 ^ b.scale
        = ((norm a).toInt * 10 ^ a.scale) * 10 ^ (norm b).scale * 10 ^ b.scale := by ac_rfl
      _ = (a.toInt * 10 ^ b.scale) * 10 ^ (norm a).scale * 10 ^ (norm b).scale := by rw [ha]; ac_rfl
      _ = (b.toInt * 10 ^ (norm b).scale) * 10 ^ a.scale * 10 ^ (norm a).scale := by rw [h]; ac_rfl
      _ = _ := by rw [← hb]; ac_rfl
  · intro h
    rw [h] at ha
    apply Int.eq_of_mul_eq_mul_right (hp (norm b).scale)
    calc a.toInt * 10 ^ b.scale * 10 ^ (norm b).scale = (a.toInt * 10 ^ (norm b).scale) * 10 ^ b.scale := by ac_rfl
      _ = ((norm b).toInt * 10 ^ b.scale) * 10 ^ a.scale := by rw [← ha]; ac_rfl
      _ = _ := by rw [hb]; ac_rfl

instance : DecSame Dec96 where
  eq := eqv
  norm := norm
  eq_iff := eqv_iff
  norm_norm a := Reduced.eq (norm_reduced _) (norm_reduced _) (norm_value _)

end Dec96

variable {D : Type} [DecSame D]

theorem sameOpt_iff {α β : Type} {eq : α → α → Bool} {f : α → β} (h : ∀ a b, eq a b = true ↔ f a = f b) (x y : Option α) :
    sameOpt eq x y = true ↔ x.map f = y.map f := by
  cases x <;> cases y <;> simp [sameOpt, h]

theorem sameList_iff {α β : Type} {eq : α → α → Bool} {f : α → β} (h : ∀ a b, eq a b = true ↔ f a = f b) (x y : List α) :
    sameList eq x y = true ↔ x.map f = y.map f := by
  induction x generalizing y with
  | nil => cases y <;> simp [sameList]
  | cons a x ih => cases y <;> simp [sameList, h, ih]

section
variable {d : D → D} {p : Str → Str}

theorem Decimal.same_iff (hd : ∀ a b, DecSame.eq a b = true ↔ d a = d b) (a b : Decimal D) : a.same b = true ↔ a.respell d = b.respell d := by
  cases a <;> cases b <;> simp [Decimal.same, Decimal.respell, hd]

theorem Position.same_iff (hd : ∀ a b, DecSame.eq a b = true ↔ d a = d b) (a b : Position D) : a.same b = true ↔ a.respell d = b.respell d := by
  simp [Position.same, Position.respell, Decimal.same_iff hd]

theorem TimingPoint.same_iff (hd : ∀ a b, DecSame.eq a b = true ↔ d a = d b) (a b : TimingPoint D) : a.same b = true ↔ a.respell d = b.respell d := by
  simp [TimingPoint.same, TimingPoint.respell, Decimal.same_iff hd, and_assoc]

theorem HOParams.same_iff (hd : ∀ a b, DecSame.eq a b = true ↔ d a = d b) (a b : HOParams D) : a.same b = true ↔ a.respell d = b.respell d := by
  have hc : ∀ x y : HO.CurvePoint D, x.same y = true ↔
      (fun c : HO.CurvePoint D => (⟨c.pos.respell d⟩ : HO.CurvePoint D)) x = (fun c => ⟨c.pos.respell d⟩) y := by
    intro x y
    simp [HO.CurvePoint.same, Position.same_iff hd]
  cases a <;> cases b <;>
    simp [HOParams.same, HOParams.respell, SlideParams.same, Decimal.same_iff hd, sameList_iff hc, and_assoc]

theorem HitObject.same_iff (hd : ∀ a b, DecSame.eq a b = true ↔ d a = d b) (a b : HitObject D) : a.same b = true ↔ a.respell d = b.respell d := by
  simp [HitObject.same, HitObject.respell, Decimal.same_iff hd, Position.same_iff hd, HOParams.same_iff hd, and_assoc]

theorem pairs_same_iff (hd : ∀ a b, DecSame.eq a b = true ↔ d a = d b) (a b : ContinuingFields (Decimal D)) :
    a.same Decimal.same b = true ↔ pairsRespell d a = pairsRespell d b := by
  have hc : ∀ x y : Decimal D × Option (Decimal D), (x.1.same y.1 && sameOpt Decimal.same x.2 y.2) = true ↔
      (fun a : Decimal D × Option (Decimal D) => (a.1.respell d, a.2.map (Decimal.respell d))) x =
        (fun a => (a.1.respell d, a.2.map (Decimal.respell d))) y := by
    intro x y
    simp [Decimal.same_iff hd, sameOpt_iff (Decimal.same_iff hd)]
  simp [ContinuingFields.same, pairsRespell, Decimal.same_iff hd, sameList_iff hc]

mutual
theorem SB.Command.same_iff (hd : ∀ a b, DecSame.eq a b = true ↔ d a = d b) : ∀ a b : Command D, a.same b = true ↔ a.respell d = b.respell d
  | .mk t q, .mk u r => by
    simp [Command.same, Command.respell, propsSame_iff hd q r]
theorem SB.propsSame_iff (hd : ∀ a b, DecSame.eq a b = true ↔ d a = d b) :
    ∀ a b : CmdProps D (Command D), propsSame a b = true ↔ propsRespell d a = propsRespell d b
  | .loop n c, b => by
    cases b with
    | loop n' c' => simp [propsSame, propsRespell, cmdsSame_iff hd c c']
    | _ => simp [propsSame, propsRespell]
  | .trigger k t g c, b => by
    cases b with
    | trigger k' t' g' c' => simp [propsSame, propsRespell, cmdsSame_iff hd c c', and_assoc]
    | _ => simp [propsSame, propsRespell]
  | .fade .., b | .move .., b | .moveX .., b | .moveY .., b | .scale .., b | .vectorScale .., b
  | .rotate .., b | .colour .., b | .parameter .., b => by
    cases b <;>
      simp [propsSame, propsRespell, Decimal.same_iff hd, sameList_iff (Decimal.same_iff hd), pairs_same_iff hd, and_assoc]
theorem SB.cmdsSame_iff (hd : ∀ a b, DecSame.eq a b = true ↔ d a = d b) :
    ∀ a b : List (Command D), cmdsSame a b = true ↔ cmdsRespell d a = cmdsRespell d b
  | [], [] => by simp [cmdsSame]
  | [], _ :: _ => by simp [cmdsSame, cmdsRespell]
  | _ :: _, [] => by simp [cmdsSame, cmdsRespell]
  | a :: as, b :: bs => by simp [cmdsSame, cmdsRespell, Command.same_iff hd a b, cmdsSame_iff hd as bs]
end

theorem SB.ObjectType.same_iff (hd : ∀ a b, DecSame.eq a b = true ↔ d a = d b) (hp : ∀ a b, pathEq a b = true ↔ p a = p b)
    (a b : ObjectType D) : a.same DecSame.eq b = true ↔ a.respell d p = b.respell d p := by
  cases a <;> cases b <;> simp [ObjectType.same, ObjectType.respell, hd, hp, and_assoc]

theorem Ev.Event.same_iff (hd : ∀ a b, DecSame.eq a b = true ↔ d a = d b) (hp : ∀ a b, pathEq a b = true ↔ p a = p b)
    (a b : Event D) : a.same b = true ↔ a.respell d p = b.respell d p := by
  cases a <;> cases b <;>
    simp [Event.same, Event.respell, Background.same, Video.same, SpriteLegacy.same, SampleLegacy.same, AudioSample.same, Object.same,
      Decimal.same_iff hd, Position.same_iff hd, sameOpt_iff (Position.same_iff hd), SB.cmdsSame_iff hd, SB.ObjectType.same_iff hd hp, hp,
      and_assoc]

theorem Osb.same_iff (hd : ∀ a b, DecSame.eq a b = true ↔ d a = d b) (hp : ∀ a b, pathEq a b = true ↔ p a = p b)
    (a b : Osb D) : a.same b = true ↔ a.respell d p = b.respell d p := by
  simp [Osb.same, Osb.respell, sameOpt_iff (sameList_iff (Event.same_iff hd hp)), and_comm]


theorem Schema.same_iff {S : Schema} (hall : ∀ k, k ∈ S.keys) {eq : (k : S.Key) → S.Val k → S.Val k → Bool}
    {f : (k : S.Key) → S.Val k → S.Val k} (h : ∀ k a b, eq k a b = true ↔ f k a = f k b) (x y : S.Section) :
    S.same eq x y = true ↔ (fun k => (x k).map (f k)) = fun k => (y k).map (f k) := by
  simp only [Schema.same, List.all_eq_true, sameOpt_iff (h _)]
  exact ⟨fun H => funext fun k => H k (hall k), fun H k _ => congrFun H k⟩

theorem GKey.same_iff (hd : ∀ a b, DecSame.eq a b = true ↔ d a = d b) (hp : ∀ a b, pathEq a b = true ↔ p a = p b)
    (k : GKey) (a b : k.Val D) : k.same a b = true ↔ k.respell d p a = k.respell d p b := by
  cases k <;> first | exact hp _ _ | exact Decimal.same_iff hd _ _ | exact decide_eq_true_iff

theorem EKey.same_iff (hd : ∀ a b, DecSame.eq a b = true ↔ d a = d b) (k : EKey) (a b : k.Val D) :
    k.same a b = true ↔ k.respell d a = k.respell d b := by
  cases k <;> first | exact Decimal.same_iff hd _ _ | exact decide_eq_true_iff

theorem MKey.same_iff (k : MKey) (a b : k.Val) : k.same a b = true ↔ a = b := by
  cases k <;> exact decide_eq_true_iff

variable [DecLib D]

theorem OsuFile.same_iff (hd : ∀ a b, DecSame.eq a b = true ↔ d a = d b) (hp : ∀ a b, pathEq a b = true ↔ p a = p b)
    (f g : OsuFile D) : f.same g = true ↔ f.respell d p = g.respell d p := by
  have hG := sameOpt_iff (Schema.same_iff (S := General D) GKey.mem_all (GKey.same_iff hd hp))
  have hE := sameOpt_iff (Schema.same_iff (S := Editor D) EKey.mem_all (EKey.same_iff hd))
  have hD := sameOpt_iff (Schema.same_iff (S := Difficulty D) DKey.mem_all (fun _ => Decimal.same_iff hd))
  have hM := sameOpt_iff (Schema.same_iff (S := Metadata) (fun k : MKey => (by cases k <;> decide : k ∈ MKey.all)) (f := fun _ x => x) MKey.same_iff)
  have hM' : ∀ x : Option Metadata.Section, x.map (fun (m : Metadata.Section) k => (m k).map fun x => x) = x := by
    intro x
    cases x with
    | none => rfl
    | some m => exact congrArg some (funext fun k => Option.map_id')
  simp only [OsuFile.same, Bool.and_eq_true, decide_eq_true_eq, hG, hE, hD, hM, hM', sameOpt_iff (Osb.same_iff hd hp),
    sameOpt_iff (sameList_iff (Event.same_iff hd hp)), sameOpt_iff (sameList_iff (TimingPoint.same_iff hd)),
    sameOpt_iff (sameList_iff (HitObject.same_iff hd)), OsuFile.respell, OsuFile.mk.injEq, and_assoc]
  exact Iff.rfl

end

/-! ### Respelling twice -/

section
omit [DecSame D]
variable (d e : D → D) (p q : Str → Str)

theorem Decimal.respell_respell (x : Decimal D) : (x.respell d).respell e = x.respell (fun a => e (d a)) := by
  cases x <;> rfl

theorem Decimal.respell_comp : Decimal.respell e ∘ Decimal.respell d = Decimal.respell (fun a => e (d a)) :=
  funext (Decimal.respell_respell d e)

theorem Position.respell_respell (x : Position D) : (x.respell d).respell e = x.respell (fun a => e (d a)) := by
  simp [Position.respell, Decimal.respell_respell]

theorem Position.respell_comp : Position.respell e ∘ Position.respell d = Position.respell (fun a => e (d a)) :=
  funext (Position.respell_respell d e)

theorem TimingPoint.respell_respell (x : TimingPoint D) : (x.respell d).respell e = x.respell (fun a => e (d a)) := by
  simp [TimingPoint.respell, Decimal.respell_respell]

theorem HOParams.respell_respell (x : HOParams D) : (x.respell d).respell e = x.respell (fun a => e (d a)) := by
  cases x <;> simp [HOParams.respell, Decimal.respell_respell, Position.respell_respell, Function.comp_def]

theorem HitObject.respell_respell (x : HitObject D) : (x.respell d).respell e = x.respell (fun a => e (d a)) := by
  simp [HitObject.respell, Decimal.respell_respell, Position.respell_respell, HOParams.respell_respell]

theorem pairsRespell_respell (x : ContinuingFields (Decimal D)) :
    pairsRespell e (pairsRespell d x) = pairsRespell (fun a => e (d a)) x := by
  simp [pairsRespell, Decimal.respell_respell, Function.comp_def]

mutual
theorem SB.Command.respell_respell : ∀ x : Command D, (x.respell d).respell e = x.respell (fun a => e (d a))
  | .mk t x => by simp [Command.respell, propsRespell_respell x]
theorem SB.propsRespell_respell : ∀ x : CmdProps D (Command D), propsRespell e (propsRespell d x) = propsRespell (fun a => e (d a)) x
  | .loop n c => by simp [propsRespell, cmdsRespell_respell c]
  | .trigger k t g c => by simp [propsRespell, cmdsRespell_respell c]
  | .fade .. | .move .. | .moveX .. | .moveY .. | .scale .. | .vectorScale .. | .rotate .. | .colour .. | .parameter .. => by
    simp [propsRespell, Decimal.respell_respell, Decimal.respell_comp, pairsRespell_respell]
theorem SB.cmdsRespell_respell : ∀ x : List (Command D), cmdsRespell e (cmdsRespell d x) = cmdsRespell (fun a => e (d a)) x
  | [] => rfl
  | a :: as => by simp [cmdsRespell, Command.respell_respell a, cmdsRespell_respell as]
end

theorem SB.ObjectType.respell_respell (x : ObjectType D) :
    (x.respell d p).respell e q = x.respell (fun a => e (d a)) (fun a => q (p a)) := by
  cases x <;> rfl

theorem Ev.Event.respell_respell (x : Event D) :
    (x.respell d p).respell e q = x.respell (fun a => e (d a)) (fun a => q (p a)) := by
  cases x <;> simp [Event.respell, Decimal.respell_respell, Position.respell_respell, Position.respell_comp, SB.cmdsRespell_respell,
    SB.ObjectType.respell_respell]

theorem Osb.respell_respell (x : Osb D) :
    (x.respell d p).respell e q = x.respell (fun a => e (d a)) (fun a => q (p a)) := by
  simp [Osb.respell, Function.comp_def, Event.respell_respell]

theorem GKey.respell_respell (k : GKey) (x : k.Val D) :
    k.respell e q (k.respell d p x) = k.respell (fun a => e (d a)) (fun a => q (p a)) x := by
  cases k <;> first | rfl | exact Decimal.respell_respell d e x

theorem EKey.respell_respell (k : EKey) (x : k.Val D) : k.respell e (k.respell d x) = k.respell (fun a => e (d a)) x := by
  cases k <;> first | rfl | exact Decimal.respell_respell d e x

theorem sections_respell {K : Type} {V : K → Type} {f g h : (k : K) → V k → V k} (H : ∀ k a, g k (f k a) = h k a)
    (x : Option ((k : K) → Option (V k))) :
    (x.map fun s k => (s k).map (f k)).map (fun s k => (s k).map (g k)) = x.map fun s k => (s k).map (h k) := by
  cases x with
  | none => rfl
  | some s =>
    refine congrArg some (funext fun k => ?_)
    cases hk : s k <;> simp [hk, H]

theorem OsuFile.respell_respell [DecLib D] (x : OsuFile D) :
    (x.respell d p).respell e q = x.respell (fun a => e (d a)) (fun a => q (p a)) := by
  simp only [OsuFile.respell, Option.map_map, List.map_map, Function.comp_def, Event.respell_respell, Osb.respell_respell,
    TimingPoint.respell_respell, HitObject.respell_respell, OsuFile.mk.injEq, true_and, and_true]
  exact ⟨sections_respell (GKey.respell_respell d e p q) _, sections_respell (EKey.respell_respell d e) _,
    sections_respell (K := DKey) (fun _ => Decimal.respell_respell d e) _⟩

end
end Osu
