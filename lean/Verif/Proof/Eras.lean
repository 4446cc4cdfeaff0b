/-
Reading and writing depend on the version only through its era.
-/
import Verif.Spec.Eras
import Verif.Proof.FileTop

namespace Osu
open Parser Ev

section
variable {D : Type} [DecLib D]

theorem Schema.run_congr {S : Schema} {v w : Nat} (h : ∀ k s, S.parse k v s = S.parse k w s) :
    ∀ (fs : List FieldLine) (n : Nat) (seen : List Str) (x : S.Section), S.run v fs n seen x = S.run w fs n seen x := by
  intro fs
  induction fs with
  | nil => intro n seen x; rfl
  | cons f fs ih =>
    intro n seen x
    simp only [Schema.run]
    split
    · rfl
    split
    · rfl
    rw [h]
    split
    · rfl
    · rfl
    · exact ih _ _ _

theorem Schema.fromStr_congr {S : Schema} {v w : Nat} (h : ∀ k s, S.parse k v s = S.parse k w s) (s : Str) :
    S.fromStr v s = S.fromStr w s := by
  unfold Schema.fromStr
  simp only [Schema.run_congr h]

theorem Schema.toStr_congr {S : Schema} {v w : Nat} (h : ∀ k x, S.shw k v x = S.shw k w x)
    (hs : ∀ t, S.spacing v t = S.spacing w t) (x : S.Section) : S.toStr v x = S.toStr w x := by
  unfold Schema.toStr
  congr 2
  funext k
  unfold Schema.fieldStr
  simp only [h, hs]

theorem General.read_era {v w : Nat} (h : sameEra (readCuts .general) v w) (s : Str) :
    (General D).fromStr v s = (General D).fromStr w s := by
  simp only [sameEra, readCuts, List.mem_cons, List.not_mem_nil, or_false, forall_eq_or_imp, forall_eq] at h
  have e1 : (3 ≤ v ∧ v ≤ 4) = (3 ≤ w ∧ w ≤ 4) := propext (by omega)
  have e2 : (v = 3) = (w = 3) := propext (by omega)
  have e3 : ∀ p : Prop, (3 ≤ v ∧ v ≤ 4 ∧ p) = (3 ≤ w ∧ w ≤ 4 ∧ p) := fun p => propext ⟨fun ⟨a, b, c⟩ => ⟨by omega, by omega, c⟩, fun ⟨a, b, c⟩ => ⟨by omega, by omega, c⟩⟩
  have e4 : ∀ p : Prop, (5 ≤ v ∧ v ≤ 6 ∧ p) = (5 ≤ w ∧ w ≤ 6 ∧ p) := fun p => propext ⟨fun ⟨a, b, c⟩ => ⟨by omega, by omega, c⟩, fun ⟨a, b, c⟩ => ⟨by omega, by omega, c⟩⟩
  have e5 : ∀ p : Prop, (7 ≤ v ∧ v ≤ 9 ∧ p) = (7 ≤ w ∧ w ≤ 9 ∧ p) := fun p => propext ⟨fun ⟨a, b, c⟩ => ⟨by omega, by omega, c⟩, fun ⟨a, b, c⟩ => ⟨by omega, by omega, c⟩⟩
  have e6 : (3 ≤ v ∧ v ≤ 13) = (3 ≤ w ∧ w ≤ 13) := propext (by omega)
  refine Schema.fromStr_congr (v := v) (w := w) (fun k s => ?_) s
  show GKey.parse k v s = GKey.parse k w s
  cases k <;> try rfl
  · simp only [GKey.parse, Countdown.parse, Countdown.fromRepr, e1]
  · simp only [GKey.parse, GSampleSet.parse, e2]
  · simp only [GKey.parse, Mode.parse, e3, e4, e5]
  · simp only [GKey.parse, OverlayPosition.parse, e6]

theorem General.write_era {v w : Nat} (h : sameEra (writeCuts .general) v w) (x : (General D).Section) :
    (General D).toStr v x = (General D).toStr w x := by
  simp only [sameEra, writeCuts, List.mem_cons, List.not_mem_nil, or_false, forall_eq_or_imp, forall_eq] at h
  have e1 : (3 ≤ v ∧ v ≤ 4) = (3 ≤ w ∧ w ≤ 4) := propext (by omega)
  have e2 : (v = 3) = (w = 3) := propext (by omega)
  have e3 : (3 ≤ v ∧ v ≤ 13) = (3 ≤ w ∧ w ≤ 13) := propext (by omega)
  have e4 : (v > 13) = (w > 13) := propext (by omega)
  have e5 : (v > 5) = (w > 5) := propext (by omega)
  refine Schema.toStr_congr (v := v) (w := w) (fun k x => ?_) (fun _ => rfl) x
  show GKey.shw k v x = GKey.shw k w x
  cases k <;> try rfl
  all_goals simp only [GKey.shw, Countdown.shw, GSampleSet.shw, OverlayPosition.shw, e1, e2, e3, e4, e5]

theorem Editor.read_era (v w : Nat) (s : Str) : (Editor D).fromStr v s = (Editor D).fromStr w s := by
  refine Schema.fromStr_congr (v := v) (w := w) (fun k s => ?_) s
  show EKey.parse k v s = EKey.parse k w s
  cases k <;> rfl

theorem Editor.write_era {v w : Nat} (h : sameEra (writeCuts .editor) v w) (x : (Editor D).Section) :
    (Editor D).toStr v x = (Editor D).toStr w x := by
  simp only [sameEra, writeCuts, List.mem_cons, List.not_mem_nil, or_false, forall_eq_or_imp, forall_eq] at h
  have e1 : (v ≠ 10) = (w ≠ 10) := propext (by omega)
  refine Schema.toStr_congr (v := v) (w := w) (fun k x => ?_) (fun _ => rfl) x
  show EKey.shw k v x = EKey.shw k w x
  cases k <;> try rfl
  simp only [EKey.shw, e1]

theorem Metadata.read_era (v w : Nat) (s : Str) : Metadata.fromStr v s = Metadata.fromStr w s := by
  refine Schema.fromStr_congr (v := v) (w := w) (fun k s => ?_) s
  show MKey.parse k v s = MKey.parse k w s
  cases k <;> rfl

theorem Metadata.write_era (v w : Nat) (x : Metadata.Section) : Metadata.toStr v x = Metadata.toStr w x := by
  refine Schema.toStr_congr (v := v) (w := w) (fun k x => ?_) (fun _ => rfl) x
  show MKey.shw k v x = MKey.shw k w x
  cases k <;> rfl

theorem Difficulty.read_era (v w : Nat) (s : Str) : (Difficulty D).fromStr v s = (Difficulty D).fromStr w s :=
  Schema.fromStr_congr (v := v) (w := w) (fun _ _ => rfl) s

theorem Difficulty.write_era {v w : Nat} (h : sameEra (writeCuts .difficulty) v w) (x : (Difficulty D).Section) :
    (Difficulty D).toStr v x = (Difficulty D).toStr w x := by
  simp only [sameEra, writeCuts, List.mem_cons, List.not_mem_nil, or_false, forall_eq_or_imp, forall_eq] at h
  have e1 : (3 ≤ v ∧ v ≤ 4) = (3 ≤ w ∧ w ≤ 4) := propext (by omega)
  refine Schema.toStr_congr (v := v) (w := w) (fun _ _ => rfl) (fun t => ?_) x
  show diffSpacing v t = diffSpacing w t
  simp only [diffSpacing, e1]

theorem Colours.read_era {v w : Nat} (h : sameEra (readCuts .colours) v w) (s : Str) :
    Colours.parse v s = Colours.parse w s := by
  simp only [sameEra, readCuts, List.mem_cons, List.not_mem_nil, or_false, forall_eq_or_imp, forall_eq] at h
  have e1 : (3 ≤ v ∧ v ≤ 4) = (3 ≤ w ∧ w ≤ 4) := propext (by omega)
  simp only [Colours.parse, e1]

theorem Colours.write_era {v w : Nat} (h : sameEra (writeCuts .colours) v w) (l : List Colour) :
    Colours.shw v l = Colours.shw w l := by
  simp only [sameEra, writeCuts, List.mem_cons, List.not_mem_nil, or_false, forall_eq_or_imp, forall_eq] at h
  have e1 : (3 ≤ v ∧ v ≤ 4) = (3 ≤ w ∧ w ≤ 4) := propext (by omega)
  simp only [Colours.shw, e1]

theorem Decimal.shiftUp_congr {v w : Nat} (e : (3 ≤ v ∧ v ≤ 4) = (3 ≤ w ∧ w ≤ 4)) :
    (Decimal.shiftUp v : Decimal D → Option (Decimal D)) = Decimal.shiftUp w := by
  funext x
  cases x <;> simp only [Decimal.shiftUp, e]

theorem Decimal.toStrShifted_congr {v w : Nat} (e : (3 ≤ v ∧ v ≤ 4) = (3 ≤ w ∧ w ≤ 4)) (x : Decimal D) :
    x.toStrShifted v = x.toStrShifted w := by
  cases x <;> simp only [Decimal.toStrShifted, e]

theorem TimingPoints.read_era {v w : Nat} (h : sameEra (readCuts .timingPoints) v w) (s : Str) :
    (TimingPoints.parse v s : Res _ (List (TimingPoint D))) = TimingPoints.parse w s := by
  simp only [sameEra, readCuts, List.mem_cons, List.not_mem_nil, or_false, forall_eq_or_imp, forall_eq] at h
  have e1 : (3 ≤ v ∧ v ≤ 4) = (3 ≤ w ∧ w ≤ 4) := propext (by omega)
  have e2 : (v ≤ 5) = (w ≤ 5) := propext (by omega)
  have e3 : (v ≤ 4) = (w ≤ 4) := propext (by omega)
  have e4 : (v ≤ 3) = (w ≤ 3) := propext (by omega)
  unfold TimingPoints.parse
  congr 1
  funext l
  simp only [TimingPoint.parse, TimingPoint.parser, TimingPoint.bodyP, TimingPoint.indexP, TimingPoint.volumeP,
    TimingPoint.tailP, Decimal.shiftUp_congr e1, e2, e3, e4]

theorem TimingPoints.write_era {v w : Nat} (h : sameEra (writeCuts .timingPoints) v w) (l : List (TimingPoint D)) :
    TimingPoints.shw v l = TimingPoints.shw w l := by
  simp only [sameEra, writeCuts, List.mem_cons, List.not_mem_nil, or_false, forall_eq_or_imp, forall_eq] at h
  have e1 : (3 ≤ v ∧ v ≤ 4) = (3 ≤ w ∧ w ≤ 4) := propext (by omega)
  have e2 : (v > 3) = (w > 3) := propext (by omega)
  have e3 : (v > 4) = (w > 4) := propext (by omega)
  have : (TimingPoint.shw v : TimingPoint D → _) = TimingPoint.shw w := by
    funext t
    simp only [TimingPoint.shw, TimingPoint.tailFields, Decimal.toStrShifted_congr e1, e2, e3]
  simp only [TimingPoints.shw, this]

theorem HitObjects.read_era {v w : Nat} (h : sameEra (readCuts .hitobjects) v w) (s : Str) :
    (HitObjects.parse v s : Res _ (List (HitObject D))) = HitObjects.parse w s := by
  simp only [sameEra, readCuts, List.mem_cons, List.not_mem_nil, or_false, forall_eq_or_imp, forall_eq] at h
  have e1 : (3 ≤ v ∧ v ≤ 4) = (3 ≤ w ∧ w ≤ 4) := propext (by omega)
  have e2 : (v = 3) = (w = 3) := propext (by omega)
  unfold HitObjects.parse
  congr 1
  funext l
  simp only [HitObject.parse, HitObject.headP, HitObject.finish, HitObject.sliderP, HitObject.curveP,
    HitObject.spinnerP, HitObject.holdP, Decimal.shiftUp_congr e1, e2]

theorem HitObjects.write_era {v w : Nat} (h : sameEra (writeCuts .hitobjects) v w) (l : List (HitObject D)) :
    HitObjects.shw v l = HitObjects.shw w l := by
  simp only [sameEra, writeCuts, List.mem_cons, List.not_mem_nil, or_false, forall_eq_or_imp, forall_eq] at h
  have e1 : (3 ≤ v ∧ v ≤ 4) = (3 ≤ w ∧ w ≤ 4) := propext (by omega)
  have e2 : (v = 3) = (w = 3) := propext (by omega)
  have e3 : (3 ≤ v ∧ v ≤ 9) = (3 ≤ w ∧ w ≤ 9) := propext (by omega)
  have e4 : (10 ≤ v ∧ v ≤ 11) = (10 ≤ w ∧ w ≤ 11) := propext (by omega)
  have hh : (HO.HitSample.shw v) = HO.HitSample.shw w := by
    funext t
    simp only [HO.HitSample.shw, e3, e4]
  have h1 : ∀ o, HitObject.sampleList v o = HitObject.sampleList w o := by
    intro o; cases o <;> simp only [HitObject.sampleList, hh]
  have h2 : ∀ o, HitObject.sampleText v o = HitObject.sampleText w o := by
    intro o; cases o <;> simp only [HitObject.sampleText, hh]
  have : (HitObject.shw v : HitObject D → _) = HitObject.shw w := by
    funext t
    simp only [HitObject.shw, HitObject.sliderTail, Decimal.toStrShifted_congr e1, e2, h1, h2]
  simp only [HitObjects.shw, this]

theorem Events.read_era [UniLib] {v w : Nat} (h : sameEra (readCuts .events) v w) (s : Str) :
    (Events.parse v s : Res _ (List (Event D))) = Events.parse w s := by
  simp only [sameEra, readCuts, List.mem_cons, List.not_mem_nil, or_false, forall_eq_or_imp, forall_eq] at h
  have e1 : (3 ≤ v ∧ v ≤ 4) = (3 ≤ w ∧ w ≤ 4) := propext (by omega)
  have hs : shiftUp v = shiftUp w := by funext t; simp only [shiftUp, e1]
  have hp : (parseEvent v : Str → Res EvErr (Event D)) = parseEvent w := by
    funext l
    simp only [parseEvent, Video.parse, Break.parse, ColourTransformation.parse, startTimeOffset, endTimeOffset, hs]
  have hst : ∀ (vars : List Variable) (evs : List (Event D)) l, step v vars evs l = step w vars evs l := by
    intro vars evs l
    simp only [step, hp]
  have hl : ∀ (vars : List Variable) (ls : List Str) n (evs : List (Event D)), loop v vars n evs ls = loop w vars n evs ls := by
    intro vars ls
    induction ls with
    | nil => intro n evs; rfl
    | cons l ls ih => intro n evs; simp only [loop, hst, ih]
  simp only [Events.parse, Events.parseVars, hl]

theorem Events.write_era {v w : Nat} (h : sameEra (writeCuts .events) v w) (l : List (Event D)) :
    Events.shw v l = Events.shw w l := by
  simp only [sameEra, writeCuts, List.mem_cons, List.not_mem_nil, or_false, forall_eq_or_imp, forall_eq] at h
  have e1 : (3 ≤ v ∧ v ≤ 4) = (3 ≤ w ∧ w ≤ 4) := propext (by omega)
  have e2 : (v < 14) = (w < 14) := propext (by omega)
  have ht : timeToStr v = timeToStr w := by funext t; simp only [timeToStr, e1]
  have : ∀ vars, (Event.shw v vars : Event D → _) = Event.shw w vars := by
    intro vars
    funext e
    cases e <;> simp only [Event.shw, Video.shwCmd, Break.shw, ColourTransformation.shw, ht, e2]
  simp only [Events.shw, Events.shwVars, this]

theorem sameEra_sub {cuts cuts' : List Nat} {v w : Nat} (hv : 3 ≤ v) (hw : 3 ≤ w) (h : sameEra cuts v w)
    (hs : ∀ c ∈ cuts', c = 3 ∨ c ∈ cuts) : sameEra cuts' v w := by
  intro c hc
  rcases hs c hc with rfl | hc
  · omega
  · exact h c hc

theorem handle_era [UniLib] {v w : Nat} (hv : 3 ≤ v) (hw : 3 ≤ w) (h : sameEra fileReadCuts v w) (f : OsuFile D)
    (name body : Str) (line : Nat) :
    OsuFile.handle w { f with version := w } name body line =
      (OsuFile.handle v f name body line).map fun r => r >>= fun g => .ok { g with version := w } := by
  have hc : ∀ n, sameEra (readCuts n) w v := by
    intro n
    have : sameEra (readCuts n) v w := sameEra_sub hv hw h (by cases n <;> decide)
    exact fun c hc => (this c hc).symm
  unfold OsuFile.handle
  rw [General.read_era (hc .general), Editor.read_era w v, Metadata.read_era w v, Difficulty.read_era w v,
    Events.read_era (hc .events), TimingPoints.read_era (hc .timingPoints), Colours.read_era (hc .colours),
    HitObjects.read_era (hc .hitobjects)]
  have hb : ∀ {E α : Type} (r : Res E α) (g : α → OsuFile D) (k : OsuFile D → OsuFile D),
      (r >>= fun x => (Res.ok (k (g x)) : Res E _)) = (r >>= fun x => .ok (g x)) >>= fun y => .ok (k y) := by
    intro E α r g k
    cases r <;> rfl
  repeat' split
  all_goals first
    | rfl
    | (simp only [Option.map_some]
       congr 1
       rw [← hb])

theorem sectionLoop_era [UniLib] {v w : Nat} (hv : 3 ≤ v) (hw : 3 ≤ w) (h : sameEra fileReadCuts v w)
    (count : Nat → Nat → Option Nat) : ∀ (xs : List Sect) (line : Nat) (seen : List Str) (f : OsuFile D),
    sectionLoop .duplicateSections .unknownSection (OsuFile.handle w) count xs line seen { f with version := w } =
      (sectionLoop .duplicateSections .unknownSection (OsuFile.handle v) count xs line seen f) >>=
        fun g => .ok { g with version := w } := by
  intro xs
  induction xs with
  | nil => intro line seen f; rfl
  | cons x xs ih =>
    intro line seen f
    simp only [sectionLoop]
    split
    · rfl
    rw [handle_era hv hw h]
    cases OsuFile.handle v f x.name x.body (line + (lines x.ws).length + (lines x.ws2).length) with
    | none => rfl
    | some r =>
      cases r with
      | err e => rfl
      | panic => rfl
      | ok g =>
        simp only [Option.map_some, Res.bind_ok]
        split
        · rfl
        · exact ih _ _ _

theorem parseRest_era [UniLib] {v w : Nat} (hv : 3 ≤ v) (hw : 3 ≤ w) (h : sameEra fileReadCuts v w) (ws r : Str) :
    (OsuFile.parseRest w ws r : Res _ (OsuFile D)) = OsuFile.parseRest v ws r >>= fun g => .ok { g with version := w } := by
  unfold OsuFile.parseRest
  split
  · rfl
  split
  · exact sectionLoop_era hv hw h _ _ _ _ (OsuFile.new v)
  · rfl

theorem shw_era {f : OsuFile D} {w : Nat} (hv : 3 ≤ f.version) (hw : 3 ≤ w) (h : sameEra fileWriteCuts f.version w) :
    (∃ t, f.shw = some (c!"osu file format v" ++ natToStr f.version ++ '\n' :: '\n' :: t) ∧
      OsuFile.shw { f with version := w } = some (c!"osu file format v" ++ natToStr w ++ '\n' :: '\n' :: t)) ∨
    (f.shw = none ∧ OsuFile.shw { f with version := w } = none) := by
  have hc : ∀ n, sameEra (writeCuts n) w f.version := by
    intro n
    have : sameEra (writeCuts n) f.version w := sameEra_sub hv hw h (by cases n <;> decide)
    exact fun c hc => (this c hc).symm
  have e1 := funext fun x => General.write_era (D := D) (hc .general) x
  have e2 := funext fun x => Editor.write_era (D := D) (hc .editor) x
  have e3 := funext fun x => Metadata.write_era w f.version x
  have e4 := funext fun x => Difficulty.write_era (D := D) (hc .difficulty) x
  have e5 := funext fun x => Events.write_era (D := D) (hc .events) x
  have e6 := funext fun x => TimingPoints.write_era (D := D) (hc .timingPoints) x
  have e7 := funext fun x => Colours.write_era (hc .colours) x
  have e8 := funext fun x => HitObjects.write_era (D := D) (hc .hitobjects) x
  unfold OsuFile.shw
  simp only [e1, e2, e3, e4, e5, e6, e7, e8, List.append_assoc]
  cases pushSection c!"General" f.general fun x => some (some ((General D).toStr f.version x)) with
  | none => exact .inr ⟨rfl, rfl⟩
  | some _ =>
  cases pushSection c!"Editor" f.editor fun x => some (some ((Editor D).toStr f.version x)) with
  | none => exact .inr ⟨rfl, rfl⟩
  | some _ =>
  cases pushSection c!"Metadata" f.metadata fun x => some (some (Metadata.toStr f.version x)) with
  | none => exact .inr ⟨rfl, rfl⟩
  | some _ =>
  cases pushSection c!"Difficulty" f.difficulty fun x => some (some ((Difficulty D).toStr f.version x)) with
  | none => exact .inr ⟨rfl, rfl⟩
  | some _ =>
  cases pushSection c!"Events" f.events fun x => (Events.shw f.version x).map some with
  | none => exact .inr ⟨rfl, rfl⟩
  | some _ =>
  cases pushSection c!"TimingPoints" f.timingPoints fun x => (TimingPoints.shw f.version x).map some with
  | none => exact .inr ⟨rfl, rfl⟩
  | some _ =>
  cases pushSection c!"Colours" f.colours fun x => some (Colours.shw f.version x) with
  | none => exact .inr ⟨rfl, rfl⟩
  | some _ =>
  cases pushSection c!"HitObjects" f.hitobjects fun x => (HitObjects.shw f.version x).map some with
  | none => exact .inr ⟨rfl, rfl⟩
  | some _ => exact .inl ⟨_, rfl, rfl⟩

end

end Osu
