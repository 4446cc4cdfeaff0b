/-
C81: the text written for each line.
-/
import Verif.Spec.Writing
import Verif.Props.Names
import Verif.Props.Tree
import Verif.Proof.EventsRT

namespace Osu
open SB Ev
variable {D : Type} [DecLib D]

/-! ### Pieces -/

/-- The text of a piece, if there is one. -/
def Piece.render : Piece D → Option Str
  | .text s => some s
  | .int n => some (intToStr n)
  | .number x => some x.toStr
  | .clock v x => x.toStrShifted v
  | .moment v t => Ev.timeToStr v t
  | .path p => some (FilePath.toStr p)

/-- The text of pieces, if there is one. -/
def render : List (Piece D) → Option Str
  | [] => some []
  | t :: ts => t.render.bind fun a => (render ts).map fun b => a ++ b

theorem moment_iff (v : Nat) (t : Int32) (s : Str) :
    (∃ n : Int32, OldTime v n t ∧ PlainInt s n.toInt) ↔ Ev.timeToStr v t = some s := by
  unfold Ev.timeToStr OldTime
  have r1 := t.toInt_lt
  have r2 := t.le_toInt
  have hv : (v = 3 ∨ v = 4) ↔ (3 ≤ v ∧ v ≤ 4) := by omega
  by_cases h : 3 ≤ v ∧ v ≤ 4
  · rw [if_pos h]
    simp only [hv, if_pos h]
    split
    · rename_i hb
      have e : (t - 24).toInt = t.toInt - 24 := by
        rw [Int32.toInt_sub]
        have : (24 : Int32).toInt = 24 := by decide
        rw [this]
        unfold Int.bmod
        dsimp only
        split <;> omega
      simp only [Option.some.injEq]
      constructor
      · rintro ⟨n, hn, hp⟩
        have : n = t - 24 := Int32.toInt_inj.1 (by omega)
        rw [← this, eq_comm, C01_printed]; exact hp
      · intro hs
        exact ⟨t - 24, by omega, (C01_printed _ _).1 hs.symm⟩
    · rename_i hb
      simp only [reduceCtorEq, iff_false]
      rintro ⟨n, hn, -⟩
      have := n.le_toInt
      omega
  · rw [if_neg h]
    simp only [hv, if_neg h, Option.some.injEq]
    constructor
    · rintro ⟨n, hn, hp⟩
      have : n = t := Int32.toInt_inj.1 (by omega)
      rw [← this, eq_comm, C01_printed]; exact hp
    · intro hs; exact ⟨t, by omega, (C01_printed _ _).1 hs.symm⟩

theorem tokSpelt_iff (t : Piece D) (s : Str) : TokSpelt t s ↔ t.render = some s := by
  cases t with
  | text a => exact ⟨by rintro ⟨⟩; rfl, by rintro ⟨⟩; exact .text _⟩
  | int n =>
    simp only [Piece.render, Option.some.injEq]
    constructor
    · rintro ⟨⟩; rename_i h; exact ((plainInt_iff _ _).1 h).symm
    · intro h; exact .int ((plainInt_iff _ _).2 h.symm)
  | number x =>
    cases x with
    | left d => exact ⟨by rintro ⟨⟩; rfl, by rintro ⟨⟩; exact .number _⟩
    | right a => exact ⟨by rintro ⟨⟩; rfl, by rintro ⟨⟩; exact .numberText _⟩
  | clock v x =>
    cases x with
    | right a => exact ⟨by rintro ⟨⟩; rfl, by rintro ⟨⟩; exact .clockText _ _⟩
    | left d =>
      simp only [Piece.render, Decimal.toStrShifted]
      constructor
      · intro h
        cases h with
        | clock _ hv => rw [if_neg (by omega)]
        | clockOld hv h => rw [if_pos (by omega), h]; rfl
      · intro h
        split at h
        · cases hd : DecLib.sub24 d with
          | none => rw [hd] at h; cases h
          | some d' => rw [hd] at h; cases h; exact .clockOld (by omega) hd
        · cases h; exact .clock _ (by omega)
  | moment v t =>
    rw [Piece.render, ← moment_iff]
    exact ⟨by rintro ⟨⟩; rename_i n ht h; exact ⟨n, ht, h⟩, fun ⟨n, ht, h⟩ => .moment ht h⟩
  | path p =>
    simp only [Piece.render, path_toStr, Option.some.injEq]
    exact ⟨by rintro ⟨⟩; rfl, by rintro rfl; exact .path _⟩

theorem spelt_iff (ts : List (Piece D)) (s : Str) : Spelt ts s ↔ render ts = some s := by
  induction ts generalizing s with
  | nil => exact ⟨by rintro ⟨⟩; rfl, by rintro ⟨⟩; exact .nil⟩
  | cons t ts ih =>
    constructor
    · intro h
      cases h with
      | cons h hs => simp only [render, (tokSpelt_iff _ _).1 h, (ih _).1 hs, Option.bind_some, Option.map_some]
    · intro h
      simp only [render, Option.bind_eq_some_iff, Option.map_eq_some_iff] at h
      obtain ⟨a, ha, b, hb, rfl⟩ := h
      exact .cons ((tokSpelt_iff _ _).2 ha) ((ih _).2 hb)

theorem render_append (a b : List (Piece D)) : render (a ++ b) = (render a).bind fun x => (render b).map fun y => x ++ y := by
  induction a with
  | nil => cases h : render b <;> simp [render, h]
  | cons t a ih =>
    simp only [List.cons_append, render, ih]
    cases t.render <;> cases render a <;> cases render b <;> simp

/-- The texts of columns. -/
def renders : List (List (Piece D)) → Option (List Str)
  | [] => some []
  | x :: xs => (render x).bind fun a => (renders xs).map fun b => a :: b

theorem render_glue (c : Char) : ∀ ls : List (List (Piece D)), render (glue c ls) = (renders ls).map (join [c])
  | [] => rfl
  | [x] => by simp only [glue, renders]; cases render x <;> simp [join]
  | x :: y :: r => by
    have ih := render_glue c (y :: r)
    simp only [glue, render_append, render, Piece.render, Option.bind_some, ih]
    simp only [renders]
    cases render x <;> cases render y <;> cases renders r <;> simp [join]

theorem renders_append (a b : List (List (Piece D))) : renders (a ++ b) = (renders a).bind fun x => (renders b).map fun y => x ++ y := by
  induction a with
  | nil => cases h : renders b <;> simp [renders, h]
  | cons t a ih =>
    simp only [List.cons_append, renders, ih]
    cases render t <;> cases renders a <;> cases renders b <;> simp

theorem renders_map {α : Type} {f : α → List (Piece D)} {g : α → Str} (l : List α) (h : ∀ x ∈ l, render (f x) = some (g x)) :
    renders (l.map f) = some (l.map g) := by
  induction l with
  | nil => rfl
  | cons x l ih =>
    simp only [List.map_cons, renders, h x (by simp), ih fun y hy => h y (by simp [hy]), Option.bind_some, Option.map_some]

theorem renders_mapM {α : Type} {f : α → List (Piece D)} {g : α → Option Str} (l : List α) (h : ∀ x ∈ l, render (f x) = g x) :
    renders (l.map f) = l.mapM g := by
  induction l with
  | nil => rfl
  | cons x l ih =>
    simp only [List.map_cons, renders, h x (by simp), ih fun y hy => h y (by simp [hy]), List.mapM_cons]
    cases g x <;> cases l.mapM g <;> rfl

/-- A column of one piece. -/
theorem render_one (t : Piece D) : render [t] = t.render := by
  simp only [render]; cases t.render <;> simp

/-! ### Timing points -/

omit [DecLib D] in
theorem i32_int (n : Int32) : i32ToStr n = intToStr n.toInt := rfl

omit [DecLib D] in
theorem nat_int (n : Nat) : natToStr n = intToStr n := by
  unfold intToStr
  rw [if_neg (by omega)]
  simp

theorem pointSet_text (x : TP.SampleSet) : x.shw = intToStr (pointSetNo x) := by
  cases x <;> rfl

theorem pointIndex_text (x : TP.SampleIndex) : x.shw = intToStr (pointIndexNo x) :=
  (plainInt_iff _ _).1 ((C80_point_sample_index _ x).2.1 rfl)

theorem flag_text (b : Bool) : boolToStr b = if b then c!"1" else c!"0" := by cases b <;> rfl

theorem point_render (v : Nat) (t : TimingPoint D) : TimingPoint.shw v t = render (pointToks v t) := by
  unfold TimingPoint.shw pointToks
  rw [render_glue]
  simp only [List.append_assoc, List.cons_append, List.nil_append, renders, render_one, Piece.render, Option.bind_some]
  cases t.time.toStrShifted v with
  | none => rfl
  | some tm =>
    simp only [Option.map_some, Option.bind_some, TimingPoint.tailFields]
    have e : ∀ x : List (List (Piece D)), ∀ y : List Str, renders x = some y →
        some (join [','] (tm :: t.beatLength.toStr :: y)) =
          Option.map (join [',']) (Option.map (fun b => tm :: b) (Option.map (fun b => t.beatLength.toStr :: b) (renders x))) := by
      intro x y h; rw [h]; rfl
    rw [List.append_assoc, List.cons_append, List.nil_append]
    refine e _ _ ?_
    rw [renders_append]
    have h1 : renders (if 4 ≤ v then [[Piece.int t.meter.toInt], [.int (pointSetNo t.sampleSet)], [.int (pointIndexNo t.sampleIndex)]]
        else ([] : List (List (Piece D)))) = some (if v > 3 then [i32ToStr t.meter, t.sampleSet.shw, t.sampleIndex.shw] else []) := by
      split
      · rw [if_pos (by omega)]
        simp only [renders, render_one, Piece.render, Option.bind_some, Option.map_some, pointSet_text, pointIndex_text, i32_int]
      · rw [if_neg (by omega)]; rfl
    rw [h1]
    generalize (if v > 3 then [i32ToStr t.meter, t.sampleSet.shw, t.sampleIndex.shw] else []) = hd
    simp only [Option.bind_some]
    split
    · rw [if_pos (by omega)]
      simp only [renders, render_one, Piece.render, Option.bind_some, Option.map_some, TP.Volume.shw, i32_int]
      cases t.uninherited with
      | none =>
        cases t.effects with
        | none => rfl
        | some x =>
          simp only [renders, render, Piece.render, Option.bind_some, Option.map_some, Option.isSome_some, if_true, TP.Effects.shw, u32ToStr,
            nat_int, List.cons_append, List.nil_append, List.append_nil]
      | some u =>
        cases t.effects with
        | none => simp only [renders, render, flagTok, Piece.render, Option.bind_some, Option.map_some, flag_text, List.cons_append,
            List.nil_append, List.append_nil]
        | some x =>
          simp only [renders, render, Piece.render, flagTok, Option.bind_some, Option.map_some, flag_text, TP.Effects.shw, u32ToStr,
            nat_int, List.cons_append, List.nil_append, List.append_nil]
    · rw [if_neg (by omega)]; simp [renders]

/-- C81: the line written for a timing point. There is none exactly if its time is a number that cannot be lowered by 24 in
versions 3 and 4. -/
theorem C81_timing_point (v : Nat) (t : TimingPoint D) (s : Str) : TimingPoint.shw v t = some s ↔ Spelt (pointToks v t) s := by
  rw [spelt_iff, point_render]

theorem printLinesP_render {α : Type} {f : α → Option Str} {g : α → List (Piece D)} (l : List α) (h : ∀ x ∈ l, f x = render (g x)) :
    printLinesP f l = render (glue '\n' (l.map g)) := by
  unfold printLinesP
  rw [render_glue, renders_mapM l fun x hx => (h x hx).symm]

/-- C81: the text written for the timing points: one line each. -/
theorem C81_timing_points (v : Nat) (l : List (TimingPoint D)) (s : Str) :
    TimingPoints.shw v l = some s ↔ Spelt (glue '\n' (l.map (pointToks v))) s := by
  rw [spelt_iff, TimingPoints.shw, printLinesP_render l fun x _ => point_render v x]

/-! ### Hit objects -/

omit [DecLib D] in
theorem objectSet_text (x : HO.SampleSet) : x.shw = intToStr (objectSetNo x) := by
  rw [← nat_int]; cases x <;> rfl

omit [DecLib D] in
theorem objectIndex_text (x : HO.SampleIndex) : x.shw = intToStr (objectIndexNo x) := by
  rw [← nat_int]; cases x <;> rfl

omit [DecLib D] in
theorem objectVolume_text (x : HO.Volume) : x.shw = intToStr ((x.val.map UInt8.toNat).getD 0 : Nat) := by
  rw [← nat_int]; obtain ⟨_ | n⟩ := x <;> rfl

omit [DecLib D] in
theorem hitSound_text (x : HO.HitSound) : x.shw = intToStr (hitSoundNo x) := by
  rw [← nat_int]; exact (plainNat_iff _ _).1 ((C80_hit_sound _ x).2.1 rfl)

theorem sample_render (v : Nat) (h : HO.HitSample) (hv : ¬ NoSample v) : h.shw v = render (sampleToks (D := D) v h) := by
  unfold HO.HitSample.shw sampleToks
  rw [if_neg (show ¬ (3 ≤ v ∧ v ≤ 9) from hv), render_glue]
  unfold NoSample at hv
  by_cases h1 : v = 10 ∨ v = 11
  · rw [if_pos (by omega), if_pos h1]
    simp only [List.append_nil, renders, render_one, Piece.render, Option.bind_some, Option.map_some, objectSet_text, objectIndex_text,
      join, List.append_assoc]
  · rw [if_neg (by omega), if_neg h1]
    simp only [List.cons_append, List.nil_append, renders, render_one, Piece.render, Option.bind_some, Option.map_some, objectSet_text,
      objectIndex_text, objectVolume_text, join, List.append_assoc]

theorem sampleCol_render (v : Nat) (o : Option HO.HitSample) :
    renders (sampleCol (D := D) v o) = some (HitObject.sampleList v o) ∧
      render (sampleCol (D := D) v o).flatten = some (HitObject.sampleText v o) := by
  cases o with
  | none => exact ⟨rfl, rfl⟩
  | some h =>
    unfold sampleCol HitObject.sampleList HitObject.sampleText
    by_cases hv : NoSample v
    · simp only [if_pos hv]
      have : h.shw v = none := by unfold HO.HitSample.shw; rw [if_pos (show 3 ≤ v ∧ v ≤ 9 from hv)]
      rw [this]
      exact ⟨rfl, rfl⟩
    · simp only [if_neg hv, List.flatten_cons, List.flatten_nil, List.append_nil, renders]
      have hs : ∃ s, h.shw v = some s := by
        unfold HO.HitSample.shw
        rw [if_neg (show ¬ (3 ≤ v ∧ v ≤ 9) from hv)]
        split
        · exact ⟨_, rfl⟩
        · exact ⟨_, rfl⟩
      obtain ⟨s, hs⟩ := hs
      rw [← sample_render v h hv, hs]
      exact ⟨rfl, rfl⟩

theorem headCols_render (v : Nat) (o : HitObject D) (h : o.comboSkip.val.toNat ≤ 7) (cs : List (List (Piece D))) :
    renders (headCols v o ++ cs) = (o.time.toStrShifted v).bind fun tm => (renders cs).map fun ps =>
      [o.position.x.toStr, o.position.y.toStr, tm, u8ToStr o.typeByte, o.hitsound.shw] ++ ps := by
  simp only [headCols, List.cons_append, List.nil_append, renders, render_one, Piece.render, Option.bind_some]
  have e : u8ToStr o.typeByte = intToStr (objectTypeNo o) := by
    rw [u8ToStr, C80_object_type o h, nat_int]
  cases o.time.toStrShifted v <;> cases renders cs <;> simp [e, hitSound_text]

theorem curvePoint_render (p : HO.CurvePoint D) : render (curvePointToks p.pos) = some p.shw := by
  unfold curvePointToks HO.CurvePoint.shw
  simp [render_glue, renders, render, Piece.render, join]

theorem edgeSet_render (e : HO.EdgeSet) :
    render (D := D) (glue ':' [[.int (objectSetNo e.normalSet)], [.int (objectSetNo e.additionSet)]]) = some e.shw := by
  unfold HO.EdgeSet.shw
  simp [render_glue, renders, render, Piece.render, join, objectSet_text]

omit [DecLib D] in
theorem curveLetter_text (x : HO.CurveType) : x.shw = curveLetter x := by cases x <;> rfl

omit [DecLib D] in
theorem join_bar (a b c d e l p : Str) (r : List Str) :
    join [','] ([a, b, c, d, e] ++ [l]) ++ ['|'] ++ join [','] (p :: r) = join [','] ([a, b, c, d, e] ++ (l ++ '|' :: p) :: r) := by
  cases r <;> simp [join]

omit [DecLib D] in
theorem join_comma (a b c d e l p : Str) (r : List Str) :
    join [','] ([a, b, c, d, e] ++ [l]) ++ [','] ++ join [','] (p :: r) = join [','] ([a, b, c, d, e] ++ l :: p :: r) := by
  cases r <;> simp [join]

theorem slider_render (v : Nat) (pos : Position D) (p : SlideParams D) (sample : Option HO.HitSample) (a b c d e : Str) :
    (renders (sliderCols v pos p sample.isSome ++ sampleCol v sample)).map (fun ps => join [','] ([a, b, c, d, e] ++ ps)) =
      some (if v = 3 ∨ p.curvePoints ≠ [] then
          join [','] ([a, b, c, d, e] ++ [p.curveType.shw]) ++ ['|'] ++ join [','] (HitObject.sliderTail v pos p sample)
        else join [','] ([a, b, c, d, e] ++ [p.curveType.shw]) ++ [','] ++ join [','] (HitObject.sliderTail v pos p sample)) := by
  have hsounds : render (D := D) (glue '|' (p.edgeSounds.map fun h => [.int (hitSoundNo h)])) =
      some (HitObject.pipeStr HO.HitSound.shw p.edgeSounds) := by
    rw [render_glue, renders_map (g := HO.HitSound.shw) _ fun x _ => by rw [render_one, Piece.render, hitSound_text]]; rfl
  have hsets : render (D := D) (glue '|' (p.edgeSets.map fun e => glue ':' [[.int (objectSetNo e.normalSet)], [.int (objectSetNo e.additionSet)]])) =
      some (HitObject.pipeStr HO.EdgeSet.shw p.edgeSets) := by
    rw [render_glue, renders_map (g := HO.EdgeSet.shw) _ fun x _ => edgeSet_render x]; rfl
  have hcurve : ∀ pts : List (HO.CurvePoint D),
      render (glue '|' ([.text (curveLetter p.curveType)] :: (pts.map HO.CurvePoint.pos).map curvePointToks)) =
        some (join ['|'] (p.curveType.shw :: pts.map HO.CurvePoint.shw)) := by
    intro pts
    rw [render_glue]
    have : renders ((pts.map HO.CurvePoint.pos).map curvePointToks) = some (pts.map HO.CurvePoint.shw) := by
      rw [List.map_map]
      exact renders_map pts fun x _ => curvePoint_render x
    simp only [renders, render_one, Piece.render, Option.bind_some, this, Option.map_some, curveLetter_text]
  have hrest : ∃ r : List Str, renders ((if (!p.edgeSounds.isEmpty || !p.edgeSoundsShort || (!p.edgeSets.isEmpty || !p.edgeSetsShort || sample.isSome))
        then [glue '|' (p.edgeSounds.map fun h => [Piece.int (hitSoundNo h)])] else ([] : List (List (Piece D)))) ++
      (if (!p.edgeSets.isEmpty || !p.edgeSetsShort || sample.isSome) then
        [glue '|' (p.edgeSets.map fun e => glue ':' [[Piece.int (objectSetNo e.normalSet)], [.int (objectSetNo e.additionSet)]])] else []) ++
      sampleCol v sample) = some r ∧
      r = (if p.edgeSounds ≠ [] ∨ p.edgeSoundsShort = false ∨ p.edgeSets ≠ [] ∨ p.edgeSetsShort = false ∨
          sample.isSome then [HitObject.pipeStr HO.HitSound.shw p.edgeSounds] else []) ++
        (if p.edgeSets ≠ [] ∨ p.edgeSetsShort = false ∨ sample.isSome then [HitObject.pipeStr HO.EdgeSet.shw p.edgeSets] else []) ++
        HitObject.sampleList v sample := by
    refine ⟨_, ?_, rfl⟩
    rw [renders_append, renders_append, (sampleCol_render v sample).1]
    have c1 : ((!p.edgeSounds.isEmpty || !p.edgeSoundsShort || (!p.edgeSets.isEmpty || !p.edgeSetsShort || sample.isSome)) = true) ↔
        (p.edgeSounds ≠ [] ∨ p.edgeSoundsShort = false ∨ p.edgeSets ≠ [] ∨ p.edgeSetsShort = false ∨ sample.isSome) := by
      simp [or_assoc]
    have c2 : ((!p.edgeSets.isEmpty || !p.edgeSetsShort || sample.isSome) = true) ↔
        (p.edgeSets ≠ [] ∨ p.edgeSetsShort = false ∨ sample.isSome) := by
      simp [or_assoc]
    have e1 : renders (if (!p.edgeSounds.isEmpty || !p.edgeSoundsShort || (!p.edgeSets.isEmpty || !p.edgeSetsShort || sample.isSome))
        then [glue '|' (p.edgeSounds.map fun h => [Piece.int (hitSoundNo h)])] else ([] : List (List (Piece D)))) =
        some (if p.edgeSounds ≠ [] ∨ p.edgeSoundsShort = false ∨ p.edgeSets ≠ [] ∨ p.edgeSetsShort = false ∨
          sample.isSome then [HitObject.pipeStr HO.HitSound.shw p.edgeSounds] else []) := by
      by_cases h : p.edgeSounds ≠ [] ∨ p.edgeSoundsShort = false ∨ p.edgeSets ≠ [] ∨ p.edgeSetsShort = false ∨ sample.isSome
      · rw [if_pos h, if_pos (c1.2 h)]; simp only [renders, hsounds, Option.bind_some, Option.map_some]
      · rw [if_neg h, if_neg (fun h' => h (c1.1 h'))]; rfl
    have e2 : renders (if (!p.edgeSets.isEmpty || !p.edgeSetsShort || sample.isSome) then
        [glue '|' (p.edgeSets.map fun e => glue ':' [[Piece.int (objectSetNo e.normalSet)], [.int (objectSetNo e.additionSet)]])]
        else ([] : List (List (Piece D)))) =
        some (if p.edgeSets ≠ [] ∨ p.edgeSetsShort = false ∨ sample.isSome then [HitObject.pipeStr HO.EdgeSet.shw p.edgeSets] else []) := by
      by_cases h : p.edgeSets ≠ [] ∨ p.edgeSetsShort = false ∨ sample.isSome
      · rw [if_pos h, if_pos (c2.2 h)]; simp only [renders, hsets, Option.bind_some, Option.map_some]
      · rw [if_neg h, if_neg (fun h' => h (c2.1 h'))]; rfl
    rw [e1, e2]
    simp only [Option.bind_some, Option.map_some]
  obtain ⟨r, hr, er⟩ := hrest
  have hcols : ∀ pts : List (HO.CurvePoint D), ((if v = 3 then [pos] else []) ++ p.curvePoints.map HO.CurvePoint.pos) = pts.map HO.CurvePoint.pos →
      renders (sliderCols v pos p sample.isSome ++ sampleCol v sample) =
        some (join ['|'] (p.curveType.shw :: pts.map HO.CurvePoint.shw) :: i32ToStr p.slides :: p.length.toStr :: r) := by
    intro pts hp
    simp only [sliderCols, hp, List.append_assoc, List.cons_append, List.nil_append, renders, hcurve, render_one, Piece.render,
      Option.bind_some]
    rw [List.append_assoc] at hr
    rw [hr]
    rfl
  have htail : HitObject.sliderTail v pos p sample = (if v = 3 then [HitObject.pipeStr HO.CurvePoint.shw (⟨pos⟩ :: p.curvePoints)]
      else if p.curvePoints ≠ [] then [HitObject.pipeStr HO.CurvePoint.shw p.curvePoints] else []) ++
      (i32ToStr p.slides :: p.length.toStr :: r) := by
    unfold HitObject.sliderTail
    rw [er]
    simp only [List.append_assoc, List.cons_append, List.nil_append]
  have hjoin : ∀ (l : Str) (x : Str) (xs : List Str), join ['|'] (l :: x :: xs) = l ++ '|' :: join ['|'] (x :: xs) := by
    intro l x xs; simp [join]
  by_cases h3 : v = 3
  · rw [if_pos (.inl h3), htail, if_pos h3, hcols (⟨pos⟩ :: p.curvePoints) (by rw [if_pos h3]; rfl)]
    simp only [Option.map_some, List.cons_append, List.nil_append, List.map_cons, hjoin, HitObject.pipeStr]
    congr 1
    exact (join_bar a b c d e p.curveType.shw _ _).symm
  · by_cases hc : p.curvePoints = []
    · rw [if_neg (fun h => h.elim h3 fun h => h hc), htail, if_neg h3, if_neg (by simp [hc]), hcols [] (by simp [h3, hc])]
      simp only [Option.map_some, List.nil_append, List.map_nil]
      congr 1
      exact (join_comma a b c d e p.curveType.shw _ _).symm
    · rw [if_pos (.inr hc), htail, if_neg h3, if_pos hc, hcols p.curvePoints (by rw [if_neg h3]; rfl)]
      cases hcp : p.curvePoints with
      | nil => exact absurd hcp hc
      | cons q qs =>
        simp only [Option.map_some, List.cons_append, List.nil_append, List.map_cons, hjoin, HitObject.pipeStr]
        congr 1
        exact (join_bar a b c d e p.curveType.shw _ _).symm

theorem object_render (v : Nat) (o : HitObject D) (h : o.comboSkip.val.toNat ≤ 7) : HitObject.shw v o = render (objectToks v o) := by
  unfold HitObject.shw objectToks
  cases hp : o.params with
  | hitCircle =>
    dsimp only
    rw [render_append, render_glue, headCols_render v o h, (sampleCol_render v o.hitsample).1]
    cases o.time.toStrShifted v with
    | none => rfl
    | some tm =>
      simp only [Option.bind_some, Option.map_some]
      split
      · simp [render, Piece.render]
      · simp [render]
  | slider p =>
    dsimp only
    rw [List.append_assoc, render_glue, headCols_render v o h]
    cases o.time.toStrShifted v with
    | none => rfl
    | some tm =>
      have := slider_render v o.position p o.hitsample o.position.x.toStr o.position.y.toStr tm (u8ToStr o.typeByte) o.hitsound.shw
      simp only [Option.bind_some, Option.map_map]
      rw [← this]
      rfl
  | spinner e =>
    dsimp only
    rw [List.append_assoc, render_glue, headCols_render v o h]
    simp only [List.cons_append, List.nil_append, renders, render_one, Piece.render, (sampleCol_render v o.hitsample).1]
    cases o.time.toStrShifted v with
    | none => rfl
    | some tm => cases e.toStrShifted v <;> simp
  | hold e =>
    dsimp only
    rw [render_glue, headCols_render v o h]
    simp only [List.cons_append, List.nil_append, renders, render, Piece.render, (sampleCol_render v o.hitsample).2]
    cases o.time.toStrShifted v with
    | none => rfl
    | some tm => cases e.toStrShifted v <;> simp [join]

/-- C81: the line written for a hit object. -/
theorem C81_hit_object (v : Nat) (o : HitObject D) (h : o.comboSkip.val.toNat ≤ 7) (s : Str) :
    HitObject.shw v o = some s ↔ Spelt (objectToks v o) s := by
  rw [spelt_iff, object_render v o h]

/-- C81: the text written for the hit objects: one line each. -/
theorem C81_hit_objects (v : Nat) (l : List (HitObject D)) (h : ∀ o ∈ l, o.comboSkip.val.toNat ≤ 7) (s : Str) :
    HitObjects.shw v l = some s ↔ Spelt (glue '\n' (l.map (objectToks v))) s := by
  rw [spelt_iff, HitObjects.shw, printLinesP_render l fun x hx => object_render v x (h x hx)]

/-! ### Commands -/

omit [DecLib D] in
theorem easing_text (e : Easing) : e.shw = intToStr (easingNo e) := by
  rw [Easing.shw, i32_int]
  cases e <;> rfl

theorem opt_render (t : Option Int32) : render (D := D) (optTok t) = some (Command.timeToStr t) := by
  cases t with
  | none => rfl
  | some n => rw [optTok, render_one, Piece.render, ← i32_int]; rfl

theorem timed_render (l : Str) (e : Easing) (st et : Option Int32) (vals : List (List (Piece D))) :
    render (glue ',' ([[.text l], [.int (easingNo e)], optTok st, optTok et] ++ vals)) =
      (renders vals).map fun vs => join [','] (l :: e.shw :: Command.timeToStr st :: Command.timeToStr et :: vs) := by
  rw [render_glue]
  simp only [List.cons_append, List.nil_append, renders, render_one, Piece.render, opt_render, Option.bind_some, easing_text,
    Option.map_map]
  cases renders vals <;> rfl

omit [DecLib D] in
theorem timed_join {α : Type} (f : α → Str) (l a b c : Str) (x : α) (xs : List α) :
    l ++ [','] ++ (a ++ [','] ++ b ++ [','] ++ c ++ [','] ++ f x ++ Command.continuingToStr f xs) =
      join [','] (l :: a :: b :: c :: (x :: xs).map f) := by
  cases xs <;> simp [Command.continuingToStr, join]

omit [DecLib D] in
theorem timed_join' (l a b c x : Str) (xs : List Str) :
    l ++ [','] ++ (a ++ [','] ++ b ++ [','] ++ c ++ [','] ++ join [','] (x :: xs)) = join [','] (l :: a :: b :: c :: x :: xs) := by
  cases xs <;> simp [join]

theorem numbers_render (xs : List (Decimal D)) : renders (xs.map fun x => [Piece.number x]) = some (xs.map Decimal.toStr) :=
  renders_map xs fun x _ => by rw [render_one, Piece.render]

theorem bytes_render (xs : List UInt8) : renders (D := D) (xs.map fun n => [Piece.int n.toNat]) = some (xs.map u8ToStr) :=
  renders_map xs fun x _ => by rw [render_one, Piece.render, u8ToStr, nat_int]

theorem pieces_map (l : List (Decimal D × Option (Decimal D))) :
    (l.flatMap fun x => x.1 :: x.2.toList).map Decimal.toStr = ContinuingFields.pieces Decimal.toStr l := by
  induction l with
  | nil => rfl
  | cons x l ih =>
    obtain ⟨a, _ | b⟩ := x <;> simp [ContinuingFields.pieces, ← ih]

omit [DecLib D] in
theorem colourPieces_map (l : List (UInt8 × Option UInt8 × Option UInt8)) :
    (l.flatMap fun x => x.1 :: (x.2.1.toList ++ x.2.2.toList)).map u8ToStr = SB.Colours.pieces l := by
  induction l with
  | nil => rfl
  | cons x l ih =>
    obtain ⟨a, _ | b, _ | c⟩ := x <;> simp [SB.Colours.pieces, ← ih]

theorem trigger_render (t : TriggerType) : render (D := D) (triggerToks t) = some t.shw := by
  cases t with
  | passing => rfl
  | failing => rfl
  | hitSound h =>
    obtain ⟨a, b, c, d⟩ := h
    have ha : ∀ x : SB.SampleSet, (triggerSets.lookup x).getD [] = x.shw := by intro x; cases x <;> rfl
    have hc : ∀ x : Addition, (triggerAdditions.lookup x).getD [] = x.shw := by intro x; cases x <;> rfl
    cases a <;> cases b <;> cases c <;> cases d <;>
      simp [triggerToks, hitSoundToks, render, Piece.render, TriggerType.shw, TriggerType.optStr, ha, hc, usizeToStr, nat_int]

theorem command_render (c : Command D) : render (commandToks c) = some c.shw := by
  have hp : ∀ x : Parameter, (parameterLetters.lookup x).getD [] = x.shw := by intro x; cases x <;> rfl
  obtain ⟨st, p⟩ := c
  unfold Command.shw Command.toStrVars Command.variableReplace
  cases p with
  | fade e et x xs | moveX e et x xs | moveY e et x xs | scale e et x xs | rotate e et x xs =>
    simp only [commandToks, timed_render, numbers_render, Option.map_some, Command.header, Command.body, timed_join]
  | move e et c | vectorScale e et c =>
    simp only [commandToks, timed_render, numbers_render, Option.map_some, Command.header, Command.body, ContinuingFields.shw,
      timed_join']
    simp only [List.map_append, pieces_map, List.map_cons, List.map_nil, List.cons_append, List.nil_append]
  | colour e et c =>
    simp only [commandToks, timed_render, bytes_render, Option.map_some, Command.header, Command.body, SB.Colours.shw,
      timed_join']
    simp only [List.map_append, colourPieces_map, List.map_cons, List.map_nil, List.cons_append, List.nil_append]
  | parameter e et x xs =>
    have : renders (D := D) ((x :: xs).map fun x => [Piece.text ((parameterLetters.lookup x).getD [])]) = some ((x :: xs).map Parameter.shw) :=
      renders_map _ fun x _ => by rw [render_one, Piece.render, hp]
    simp only [commandToks, timed_render, this, Option.map_some, Command.header, Command.body, timed_join]
  | loop n cs =>
    simp only [commandToks, render_glue, renders, render_one, opt_render, Piece.render, Option.bind_some, Option.map_some, Command.header,
      Command.body, u32ToStr, nat_int, join, List.append_assoc]
  | trigger t et g cs =>
    simp only [commandToks, render_glue, Command.header, Command.body]
    cases st <;> cases et <;> cases g <;>
      simp [colsToLast, renders, render_one, opt_render, trigger_render, Piece.render, Command.timeToStr, TriggerType.optStr, join]

/-- C81: the line written for a command without variables. -/
theorem C81_command (c : Command D) (s : Str) : c.shw = s ↔ Spelt (commandToks c) s := by
  rw [spelt_iff, command_render, Option.some.injEq]

/-! ### Events -/

theorem position_render (p : Option (Position D)) :
    ∃ ps, renders (positionCols p) = some ps ∧ positionStr p = ps.flatMap fun a => ',' :: a := by
  cases p with
  | none => exact ⟨[], rfl, rfl⟩
  | some p => exact ⟨[p.x.toStr, p.y.toStr], by simp [positionCols, renders, render, Piece.render], by simp [positionStr]⟩

omit [DecLib D] in
theorem join_flatMap (x : Str) (ps : List Str) : join [','] (x :: ps) = x ++ ps.flatMap fun a => ',' :: a := by
  induction ps generalizing x with
  | nil => simp [join]
  | cons p ps ih => rw [join_cons_cons, ih]; simp

omit [DecLib D] in
theorem layerLegacy_text (x : LayerLegacy) : x.shw = intToStr (legacyLayers.idxOf x) := by
  rw [← nat_int]; cases x <;> rfl

omit [DecLib D] in
theorem originLegacy_text (x : OriginLegacy) : x.shw = intToStr (legacyOrigins.idxOf x) := by
  rw [← nat_int]; cases x <;> rfl

omit [DecLib D] in
theorem audioLayer_text (x : AudioLayer) : usizeToStr x.code = intToStr (audioLayers.idxOf x) := by
  rw [← nat_int]; cases x <;> rfl

theorem origin_render (o : Origin) : (originTok (D := D) o).render = some o.shw := by
  obtain ⟨t | n, b⟩ := o
  · cases b
    · cases t <;> rfl
    · simp only [originTok, Origin.shw, if_true, Piece.render, i32_int]
      cases t <;> rfl
  · cases b <;> simp only [originTok, Origin.shw, if_true, Piece.render, i32_int, Bool.false_eq_true, if_false]

theorem legacy_render (h : Str) (x : SpriteLegacy D) : render (glue ',' (legacyCols h x)) = some (x.shwCmd h) := by
  obtain ⟨ps, h1, h2⟩ := position_render x.position
  simp only [legacyCols, SpriteLegacy.shwCmd, render_glue, List.cons_append, List.nil_append, renders, render_one, Piece.render, h1, h2,
    Option.bind_some, Option.map_some, layerLegacy_text, originLegacy_text]
  simp [join_flatMap]

/-- The first line of an event in the model. -/
def eventFirst (v : Nat) : Event D → Option Str
  | .comment s => some (c!"//" ++ s)
  | .background e => some e.shwCmd
  | .video e => e.shwCmd v
  | .break_ e => e.shw v
  | .colourTransformation e => (timeToStr v e.startTime).map fun st =>
      c!"3," ++ st ++ [','] ++ u8ToStr e.red ++ [','] ++ u8ToStr e.green ++ [','] ++ u8ToStr e.blue
  | .spriteLegacy e => some (e.shwCmd c!"4")
  | .animationLegacy e => some (e.shwCmd c!"5")
  | .sampleLegacy e => some e.shwCmd
  | .object e => some e.shwCmd
  | .audioSample e => some e.shw

theorem eventFirst_render (v : Nat) (e : Event D) : render (eventToks v e) = eventFirst v e := by
  cases e with
  | comment s => simp [eventToks, eventFirst, render, Piece.render]
  | background b =>
    obtain ⟨ps, h1, h2⟩ := position_render b.position
    simp only [eventToks, eventFirst, Background.shwCmd, render_glue, List.cons_append, List.nil_append, renders, render_one, Piece.render,
      h1, h2, Option.bind_some, Option.map_some, i32_int]
    simp [join_flatMap]
  | video b =>
    obtain ⟨ps, h1, h2⟩ := position_render b.position
    simp only [eventToks, eventFirst, Video.shwCmd, render_glue, List.cons_append, List.nil_append, renders, render_one, Piece.render,
      h1, h2, Option.bind_some, Option.map_some]
    cases Ev.timeToStr v b.startTime with
    | none => rfl
    | some t => simp [join_flatMap]
  | break_ b =>
    simp only [eventToks, eventFirst, Break.shw, render_glue, renders, render_one, Piece.render, Option.bind_some, Option.map_some]
    cases Ev.timeToStr v b.startTime with
    | none => rfl
    | some t => cases Ev.timeToStr v b.endTime with
      | none => rfl
      | some t' => simp [join_flatMap]
  | colourTransformation c =>
    simp only [eventToks, eventFirst, render_glue, renders, render_one, Piece.render, Option.bind_some, Option.map_some, u8ToStr, nat_int]
    cases Ev.timeToStr v c.startTime with
    | none => rfl
    | some t => simp [join_flatMap]
  | spriteLegacy x => exact legacy_render _ x
  | animationLegacy x => exact legacy_render _ x
  | sampleLegacy x =>
    simp only [eventToks, eventFirst, SampleLegacy.shwCmd, render_glue, List.cons_append, List.nil_append, renders, render_one, Piece.render,
      Option.bind_some, Option.map_some, layerLegacy_text]
    cases x.volume <;> simp [join_flatMap, renders, render_one, Piece.render, Ev.Volume.shw, u8ToStr, nat_int]
  | object o =>
    have hl : (layerNames.lookup o.layer).getD [] = o.layer.shw := by cases o.layer <;> rfl
    have hlo : ∀ l : LoopType, (loopNames.lookup l).getD [] = l.shw := by intro l; cases l <;> rfl
    cases ho : o.objectType with
    | sprite f =>
      simp only [eventToks, eventFirst, Object.shwCmd, ho, render_glue, List.cons_append, List.nil_append, renders, render_one,
        origin_render, hl]
      simp only [Piece.render, Option.bind_some, Option.map_some]
      simp [join_flatMap]
    | animation n d l f =>
      have hd : (Piece.number (.left d)).render = some (DecLib.shw d) := rfl
      simp only [eventToks, eventFirst, Object.shwCmd, ho, render_glue, List.cons_append, List.nil_append, renders, render_one,
        origin_render, hl, hlo, hd]
      simp only [Piece.render, Option.bind_some, Option.map_some, u32ToStr, nat_int]
      simp [join_flatMap]
  | audioSample a =>
    simp only [eventToks, eventFirst, AudioSample.shw, render_glue, renders, render_one, Piece.render, Option.bind_some, Option.map_some,
      i32_int, audioLayer_text, Ev.Volume.shw, u8ToStr, nat_int]
    simp [join_flatMap]

omit [DecLib D] in
theorem join_isEmpty (c : Char) (l : List Str) (h : ∀ x ∈ l, x ≠ []) : (join [c] l).isEmpty = l.isEmpty := by
  match l with
  | [] => rfl
  | [x] => have := h x (by simp); cases x <;> simp_all [join]
  | x :: y :: r => have := h x (by simp); cases x <;> simp_all [join]

theorem withCmds_lines (first : Str) (cmds : List (Command D)) :
    withCmds [] first cmds = some (join ['\n'] (first :: (SB.listing 1 cmds).map fun x => List.replicate x.1 ' ' ++ x.2.shw)) := by
  unfold withCmds
  rw [C28_depth_first, Option.map_some]
  congr 1
  have hne : ∀ x ∈ (SB.listing 1 cmds).map fun x => List.replicate x.1 ' ' ++ x.2.toStrVars [], x ≠ [] := by
    intro x hx
    obtain ⟨y, -, rfl⟩ := List.mem_map.1 hx
    simp [Command.toStrVars]
  rw [join_isEmpty _ _ hne]
  change first ++ _ = join ['\n'] (first :: (SB.listing 1 cmds).map fun x => List.replicate x.1 ' ' ++ x.2.toStrVars [])
  cases (SB.listing 1 cmds).map fun x => List.replicate x.1 ' ' ++ x.2.toStrVars [] with
  | nil => simp [join]
  | cons a l => simp [join]

theorem cmdLines_render (cmds : List (Nat × Command D)) :
    renders (cmds.map fun x => Piece.text (List.replicate x.1 ' ') :: commandToks x.2) =
      some (cmds.map fun x => List.replicate x.1 ' ' ++ x.2.shw) :=
  renders_map _ fun x _ => by simp only [render, Piece.render, command_render, Option.bind_some, Option.map_some]

theorem event_shw (v : Nat) (e : Event D) : Event.shw v [] e =
    if writtenIn v e then ((renders (eventLines v e)).map (join ['\n'])).map some else some none := by
  have h : renders (eventLines v e) = (eventFirst v e).map fun f =>
      f :: (SB.listing 1 (cmdsOf e)).map fun x => List.replicate x.1 ' ' ++ x.2.shw := by
    simp only [eventLines, renders, eventFirst_render, cmdLines_render, Option.map_some]
    cases eventFirst v e <;> rfl
  rw [h]
  cases e with
  | comment s => rfl
  | background b => simp only [Event.shw, withCmds_lines, writtenIn, eventFirst, if_true, Option.map_some]; rfl
  | video b =>
    simp only [Event.shw, withCmds_lines, writtenIn, eventFirst, cmdsOf, if_true, Option.map_some]
    cases b.shwCmd v <;> rfl
  | break_ b =>
    simp only [Event.shw, writtenIn, eventFirst, cmdsOf, if_true]
    cases b.shw v <;> rfl
  | colourTransformation c =>
    simp only [Event.shw, writtenIn, eventFirst, cmdsOf, ColourTransformation.shw, decide_eq_true_eq]
    split
    · cases Ev.timeToStr v c.startTime <;> rfl
    · rfl
  | spriteLegacy b => simp only [Event.shw, withCmds_lines, writtenIn, eventFirst, if_true, Option.map_some]; rfl
  | animationLegacy b => simp only [Event.shw, withCmds_lines, writtenIn, eventFirst, if_true, Option.map_some]; rfl
  | sampleLegacy b => simp only [Event.shw, withCmds_lines, writtenIn, eventFirst, if_true, Option.map_some]; rfl
  | object b => simp only [Event.shw, withCmds_lines, writtenIn, eventFirst, if_true, Option.map_some]; rfl
  | audioSample a => rfl

/-- C81: the text written for an event that is written in the version: its line, then the lines of its commands. -/
theorem C81_event (v : Nat) (e : Event D) (s : Str) :
    Event.shw v [] e = some (some s) ↔ writtenIn v e = true ∧ Spelt (glue '\n' (eventLines v e)) s := by
  rw [event_shw, spelt_iff, render_glue]
  by_cases h : writtenIn v e = true
  · rw [if_pos h]
    cases renders (eventLines v e) <;> simp [h]
  · rw [if_neg h]; simp [h]

omit [DecLib D] in
theorem join_flatten (c : Char) (ls : List (List Str)) (h : ∀ l ∈ ls, l ≠ []) : join [c] (ls.map (join [c])) = join [c] ls.flatten := by
  induction ls with
  | nil => rfl
  | cons l ls ih =>
    have ih := ih fun x hx => h x (List.mem_cons_of_mem _ hx)
    cases ls with
    | nil => simp [join]
    | cons m ms =>
      have hm : ∃ a r, (m :: ms).flatten = a :: r := by
        have := h m (by simp)
        cases m with
        | nil => exact absurd rfl this
        | cons a m => exact ⟨a, _, rfl⟩
      obtain ⟨a, r, hm⟩ := hm
      rw [List.map_cons, List.map_cons, join_cons_cons, ← List.map_cons, ih, List.flatten_cons (l := l), hm]
      have hl := h l (by simp)
      clear ih hm h
      induction l with
      | nil => exact absurd rfl hl
      | cons x l ihl =>
        cases l with
        | nil => simp [join]
        | cons y l =>
          rw [join_cons_cons, List.cons_append, List.cons_append, join_cons_cons, ← List.cons_append, ← ihl (by simp)]
          simp

theorem events_render (v : Nat) (evs : List (Event D)) :
    (evs.mapM (Event.shw v [])).map (fun l => l.filterMap id) =
      ((evs.filter (writtenIn v)).mapM fun e => renders (eventLines v e)).map fun l => l.map (join ['\n']) := by
  induction evs with
  | nil => rfl
  | cons e evs ih =>
    rw [List.mapM_cons, event_shw]
    by_cases h : writtenIn v e = true
    · rw [if_pos h, List.filter_cons_of_pos h, List.mapM_cons]
      cases renders (eventLines v e) with
      | none => rfl
      | some l =>
        cases h1 : evs.mapM (Event.shw v []) <;>
          cases h2 : (evs.filter (writtenIn v)).mapM (fun e => renders (eventLines v e)) <;> rw [h1, h2] at ih <;> simp_all
    · rw [if_neg h, List.filter_cons_of_neg h]
      cases h1 : evs.mapM (Event.shw v []) <;>
        cases h2 : (evs.filter (writtenIn v)).mapM (fun e => renders (eventLines v e)) <;> rw [h1, h2] at ih <;> simp_all

theorem renders_flatMap {α : Type} (f : α → List (List (Piece D))) (l : List α) :
    renders (l.flatMap f) = (l.mapM fun x => renders (f x)).map List.flatten := by
  induction l with
  | nil => rfl
  | cons x l ih =>
    rw [List.flatMap_cons, renders_append, ih, List.mapM_cons]
    cases renders (f x) <;> cases l.mapM (fun x => renders (f x)) <;> rfl

theorem renders_nil_iff (ls : List (List (Piece D))) (h : renders ls = some []) : ls = [] := by
  cases ls with
  | nil => rfl
  | cons a l =>
    simp only [renders] at h
    cases h1 : render a <;> cases h2 : renders l <;> simp [h1, h2] at h

theorem mapM_mem {α β : Type} (f : α → Option β) (l : List α) (r : List β) (h : l.mapM f = some r) : ∀ y ∈ r, ∃ x ∈ l, f x = some y := by
  induction l generalizing r with
  | nil => cases h; simp
  | cons x l ih =>
    rw [List.mapM_cons] at h
    cases h1 : f x with
    | none => rw [h1] at h; cases h
    | some y =>
      cases h2 : l.mapM f with
      | none => rw [h1, h2] at h; cases h
      | some ys =>
        rw [h1, h2] at h
        cases h
        intro z hz
        rcases List.mem_cons.1 hz with rfl | hz
        · exact ⟨x, by simp, h1⟩
        · obtain ⟨w, hw, e⟩ := ih ys h2 z hz
          exact ⟨w, by simp [hw], e⟩

/-- C81: the text written for the events. -/
theorem C81_events (v : Nat) (evs : List (Event D)) (s : Str) : Events.shw v evs = some s ↔ Spelt (eventsToks v evs) s := by
  rw [spelt_iff, eventsToks, render_glue, renders_flatMap]
  have : Events.shw v evs = ((evs.mapM (Event.shw v [])).map fun l => l.filterMap id).map (join ['\n']) := by
    unfold Events.shw Events.shwVars
    rw [Option.map_map]; rfl
  rw [this, events_render]
  cases h : (evs.filter (writtenIn v)).mapM fun e => renders (eventLines v e) with
  | none => rfl
  | some ls =>
    simp only [Option.map_some]
    rw [join_flatten _ ls fun l hl => ?_]
    rintro rfl
    obtain ⟨e, -, he⟩ := mapM_mem _ _ _ h _ hl
    have := renders_nil_iff _ he
    simp [eventLines] at this

/-! ### Colours and variables -/

theorem colour_render (c : Colour) : render (D := D) (colourToks c) = some c.shw := by
  have hr : ∀ c : Rgb, render (D := D) (colourToks.rgb c) = some c.shw := by
    intro c
    simp [colourToks.rgb, render_glue, renders, render, Piece.render, Rgb.shw, u8ToStr, nat_int, join]
  cases c <;> simp [colourToks, render_append, render, Piece.render, hr, Colour.shw, i32_int]

/-- C81: the line written for a colour. -/
theorem C81_colour (c : Colour) (s : Str) : c.shw = s ↔ Spelt (D := D) (colourToks c) s := by
  rw [spelt_iff, colour_render, Option.some.injEq]

/-- C81: the text written for the colours: one line each, from version 5 on. -/
theorem C81_colours (v : Nat) (l : List Colour) (s : Str) :
    Colours.shw v l = some s ↔ (v ≠ 3 ∧ v ≠ 4) ∧ Spelt (D := D) (glue '\n' (l.map colourToks)) s := by
  rw [spelt_iff, render_glue, renders_map (g := Colour.shw) l fun x _ => colour_render x]
  unfold Colours.shw printLines
  by_cases h : 3 ≤ v ∧ v ≤ 4
  · rw [if_pos h]; simp; omega
  · rw [if_neg h]; simp; omega

/-- C81: the line written for a variable. -/
theorem C81_variable (x : Variable) (s : Str) : x.shw = s ↔ Spelt (D := D) (variableToks x) s := by
  rw [spelt_iff]
  simp [variableToks, render, Piece.render, Variable.shw]

/-! ### Examples -/

section
/-- A timing point, a slider and a sprite with a loop. -/
def wrPoint : TimingPoint Dec96 := ⟨.left ⟨false, 1500, 0⟩, .left ⟨true, 505, 1⟩, 4, .drum, .index 2, ⟨70⟩, none, some ⟨9⟩⟩
def wrSlider : HitObject Dec96 :=
  ⟨⟨.left ⟨false, 1, 0⟩, .right c!"y"⟩, .left ⟨false, 24, 0⟩, .slider ⟨.perfectCircle, [⟨⟨.left ⟨false, 5, 0⟩, .left ⟨false, 6, 0⟩⟩⟩],
    2, .left ⟨false, 1405, 1⟩, [], true, [⟨.soft, .other 7⟩], false⟩, true, ⟨3⟩, ⟨false, true, false, true⟩,
    some ⟨.normal, .noCustom, .index 3, ⟨some 80⟩, c!"a.wav"⟩⟩
def wrSprite : Event Dec96 := .object ⟨.fail, ⟨.inl .bottomCentre, false⟩, ⟨.left ⟨false, 320, 0⟩, .left ⟨false, 24, 1⟩⟩, .sprite c!"a b.png",
  [.mk (some 5) (.loop 2 [.mk none (.trigger (.hitSound ⟨some .all, none, some .clap, some 3⟩) none (some 7) []),
    .mk (some 1) (.move .bounceInOut none ⟨(.left ⟨false, 1, 0⟩, .left ⟨false, 2, 0⟩), [(.left ⟨false, 3, 0⟩, none)]⟩)])]⟩

example : Spelt (pointToks 14 wrPoint) c!"1500,-50.5,4,3,2,70,,9" := (C81_timing_point _ _ _).1 (by decide)
example : Spelt (pointToks 4 wrPoint) c!"1476,-50.5,4,3,2" := (C81_timing_point _ _ _).1 (by decide)
example : Spelt (glue '\n' ([wrPoint, wrPoint].map (pointToks 3))) c!"1476,-50.5\n1476,-50.5" := (C81_timing_points _ _ _).1 (by decide)
example : wrSlider.comboSkip.val.toNat ≤ 7 ∧ Spelt (objectToks 14 wrSlider) c!"1,y,24,54,10,P|5:6,2,140.5,,2:7,1:0:3:80:a.wav" :=
  ⟨by decide, (C81_hit_object _ _ (by decide) _).1 (by decide)⟩
example : Spelt (objectToks 3 wrSlider) c!"1,y,0,54,10,P|1:y|5:6,2,140.5,,2:7" := (C81_hit_object _ _ (by decide) _).1 (by decide)
example : Spelt (glue '\n' ([wrSlider, wrSlider].map (objectToks 10)))
    c!"1,y,24,54,10,P|5:6,2,140.5,,2:7,1:0:3\n1,y,24,54,10,P|5:6,2,140.5,,2:7,1:0:3" :=
  (C81_hit_objects _ _ (fun o ho => by simp only [List.mem_cons, List.not_mem_nil, or_false, or_self] at ho; rw [ho]; decide) _).1 (by decide)
example : Spelt (commandToks (.mk (some 1) (.colour .quadIn (some 9) ⟨(255, 0, 8), [(7, some 6, none)]⟩) : Command Dec96))
    c!"C,3,1,9,255,0,8,7,6" := (C81_command _ _).1 (by decide)
example : writtenIn 14 wrSprite = true ∧ Spelt (glue '\n' (eventLines 14 wrSprite))
    c!"Sprite,Fail,BottomCentre,\"a b.png\",320,2.4\n L,5,2\n  T,HitSoundAllClap3,,,7\n  M,34,1,,1,2,3" :=
  (C81_event _ _ _).1 (by decide)
example : Spelt (eventsToks 14 [.comment c!"x", .colourTransformation ⟨1, 2, 3, 4⟩, .break_ ⟨7, 8, true⟩, .video ⟨7, c!"v", none, [], false⟩]
    : List (Piece Dec96)) c!"//x\n2,7,8\nVideo,7,v" := (C81_events _ _ _).1 (by decide)
example : Spelt (eventsToks 4 [.colourTransformation ⟨24, 2, 3, 4⟩, .break_ ⟨7, 8, true⟩] : List (Piece Dec96)) c!"3,0,2,3,4\n2,-17,-16" :=
  (C81_events _ _ _).1 (by decide)
example : Spelt (D := Dec96) (colourToks (.combo 3 ⟨1, 20, 255⟩)) c!"Combo3 : 1,20,255" := (C81_colour _ _).1 (by decide)
example : Spelt (D := Dec96) (glue '\n' ([Colour.sliderBorder ⟨1, 2, 3⟩, .sliderTrackOverride ⟨4, 5, 6⟩].map colourToks))
    c!"SliderBorder : 1,2,3\nSliderTrackOverride : 4,5,6" := ((C81_colours 14 _ _).1 (by decide)).2
example : Spelt (D := Dec96) (variableToks ⟨c!"a", c!"b c"⟩) c!"$a=b c" := (C81_variable _ _).1 (by decide)
end

end Osu
