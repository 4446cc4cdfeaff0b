/-
The texts of the errors of lines are those of the specification.
-/
import Verif.Model.Messages
import Verif.Spec.Messages
import Verif.Proof.Lines
import Verif.Proof.Num

namespace Osu
open SB Ev Parser

/-- The same columns with other errors. -/
def Column.map {E F : Type} (f : E → F) (c : Column E) : Column F := ⟨f c.missing, f c.invalid, c.ok, c.toEnd⟩

theorem firstFault_map {E F : Type} (f : E → F) : ∀ (cs : List (Column E)) (ps : List Str),
    firstFault (cs.map (Column.map f)) ps = (firstFault cs ps).map f := by
  intro cs
  induction cs with
  | nil => intro ps; rfl
  | cons c cs ih =>
    intro ps
    cases ps with
    | nil => rfl
    | cons p ps =>
      simp only [List.map_cons, firstFault, Column.map]
      cases c.toEnd <;> simp only [Bool.false_eq_true, if_true, if_false, ih] <;> split <;> rfl

theorem tpNamed_eq (v n : Nat) : tpNamed v n = (tpColumns v n).map (Column.map TPErr.msg) := by
  unfold tpNamed tpColumns
  simp only [List.map_append]
  congr 1
  · congr 1
    · congr 1
      · congr 1
        · split <;> rfl
      · split <;> rfl
    · split <;> rfl
  · split <;> rfl

theorem timeNamed_eq (qs : List Str) : timeNamed qs = (timeColumns qs).map (Column.map CmdErr.msg) := by
  rcases qs with - | ⟨a, - | ⟨- | ⟨c, b⟩, - | ⟨- | ⟨e, d⟩, - | ⟨f, qs⟩⟩⟩⟩ <;> rfl

theorem startNamed_eq (qs : List Str) : startNamed qs = (startColumn qs).map CmdErr.msg := by
  unfold startNamed startColumn
  match qs with
  | [] => rfl
  | [_] => rfl
  | _ :: _ :: _ => rfl

theorem cmdNamed_eq [UniLib] (qs : List Str) :
    cmdNamed qs = (cmdTable qs).map fun e => (e.1, e.2.map (Column.map CmdErr.msg)) := by
  unfold cmdNamed cmdTable
  simp only [List.map_cons, List.map_nil, List.map_append, timeNamed_eq, startNamed_eq, furtherNamed, restColumns,
    List.map_map, triggerColumns, List.map_take]
  rfl

theorem find_map {α β : Type} (f : α → β) (p : β → Bool) (q : α → Bool) (h : ∀ a, p (f a) = q a) (l : List α) :
    (l.map f).find? p = (l.find? q).map f := by
  induction l with
  | nil => rfl
  | cons a l ih =>
    simp only [List.map_cons, List.find?_cons, h, ih]
    split <;> rfl

theorem cmdSays_eq [UniLib] (p : Str) (qs : List Str) : cmdSays p qs = (cmdFault p qs).map CmdErr.msg := by
  unfold cmdSays cmdFault
  split
  · rw [← firstFault_map, timeNamed_eq, List.map_append]; rfl
  · rw [cmdNamed_eq, find_map (fun e : Str × List (Column CmdErr) => (e.1, e.2.map (Column.map CmdErr.msg))) _
      (fun e => e.1.isPrefixOf p) (fun _ => rfl)]
    cases (cmdTable qs).find? fun e => e.1.isPrefixOf p with
    | none => rfl
    | some e => simp only [Option.map_some, firstFault_map]

theorem filePosNamed_eq (more : List Str) : filePosNamed more = (filePosColumns more).map (Column.map NEErr.msg) := by
  unfold filePosNamed filePosColumns
  split <;> rfl

theorem map_msg_eq {E : Type} (cs : List (Column E)) (msg : E → Str) (f : E → EvErr) (h : ∀ e, (f e).msg = msg e)
    (ns : List (Column Str)) (hn : ns = cs.map (Column.map msg)) (qs : List Str) :
    firstFault ns qs = ((firstFault cs qs).map f).map EvErr.msg := by
  rw [hn, firstFault_map, Option.map_map]
  congr 1
  funext e
  exact (h e).symm

theorem evSays_eq (D : Type) [DecLib D] (p : Str) (qs : List Str) : evSays D p qs = (evFault D p qs).map EvErr.msg := by
  unfold evSays evFault
  have hbg : named c!"start_time" (readable parseI32) :: filePosNamed (qs.drop 2) =
      (backgroundColumns qs).map (Column.map NEErr.msg) := by
    rw [filePosNamed_eq]; rfl
  have hlg : [named c!"layer" (readable LayerLegacy.parse), named c!"origin" (readable OriginLegacy.parse)] ++
      filePosNamed (qs.drop 3) = (legacyColumns qs).map (Column.map NEErr.msg) := by
    rw [filePosNamed_eq]; unfold legacyColumns; rw [List.map_append]; rfl
  by_cases h0 : p = c!"0"
  · rw [if_pos (.inl h0), if_pos h0]
    refine map_msg_eq _ NEErr.msg _ ?_ _ hbg _; intro _; rfl
  by_cases h1 : p = c!"1" ∨ p = c!"Video"
  · rw [if_pos (.inr h1), if_neg h0, if_pos h1]
    refine map_msg_eq _ NEErr.msg _ ?_ _ hbg _; intro _; rfl
  rw [if_neg (by rintro (h | h); exact h0 h; exact h1 h), if_neg h0, if_neg h1]
  split
  · refine map_msg_eq _ NEErr.msg _ ?_ _ ?_ _ <;> first | (intro _; rfl) | rfl
  split
  · refine map_msg_eq _ NEErr.msg _ ?_ _ ?_ _ <;> first | (intro _; rfl) | rfl
  by_cases h4 : p = c!"4"
  · rw [if_pos (.inl h4), if_pos h4]
    refine map_msg_eq _ NEErr.msg _ ?_ _ hlg _; intro _; rfl
  by_cases h5 : p = c!"5"
  · rw [if_pos (.inr h5), if_neg h4, if_pos h5]
    refine map_msg_eq _ NEErr.msg _ ?_ _ hlg _; intro _; rfl
  rw [if_neg (by rintro (h | h); exact h4 h; exact h5 h), if_neg h4, if_neg h5]
  split
  · refine map_msg_eq _ NEErr.msg _ ?_ _ ?_ _
    · intro _; rfl
    unfold sampleLegacyColumns
    rw [List.map_append]
    congr 1
    split <;> rfl
  split
  · refine map_msg_eq _ ObjErr.msg _ ?_ _ ?_ _ <;> first | (intro _; rfl) | rfl
  split
  · refine map_msg_eq _ ObjErr.msg _ ?_ _ ?_ _ <;> first | (intro _; rfl) | rfl
  split
  · refine map_msg_eq _ audioMsg _ ?_ _ ?_ _
    · intro _; rfl
    unfold audioColumns
    rw [List.map_append]
    congr 1
    split <;> rfl
  · rfl

theorem edgeNamed_eq (qs : List Str) : edgeNamed qs = (edgeColumns qs).map (Column.map HOErr.msg) := by
  match qs with
  | [] => rfl
  | [_] => rfl
  | [_, _] => rfl
  | _ :: _ :: _ :: _ => rfl

theorem sampleNamed_eq (qs : List Str) : sampleNamed qs = (sampleColumns qs).map (Column.map HOErr.msg) := by
  unfold sampleNamed sampleColumns
  split <;> rfl

theorem kindNamed_eq (D : Type) [DecLib D] (qs : List Str) (k : HOKind) :
    kindNamed D qs k = (kindColumns D qs k).map (Column.map HOErr.msg) := by
  cases k with
  | circle => exact sampleNamed_eq qs
  | slider =>
    simp only [kindNamed, kindColumns, sliderColumns, List.map_append, edgeNamed_eq]
    congr 1
    simp only [List.map_cons, List.map_nil, curveColumn, Column.map]
    cases curveName (qs.headD []) <;> rfl
  | spinner => simp only [kindNamed, kindColumns, spinnerColumns, List.map_cons, sampleNamed_eq]; rfl
  | hold =>
    simp only [kindNamed, kindColumns, holdColumns, List.map_cons, List.map_nil, Column.map]
    cases lacks ':' (join [','] qs) <;> rfl

theorem hoSays_eq (D : Type) [DecLib D] (ps : List Str) : hoSays D ps = (hoFault D ps).map HOErr.msg := by
  unfold hoSays hoFault
  have h : [namedFree c!"x", namedFree c!"y", namedFree c!"time", named c!"obj_type" (readable parseI32),
      named c!"hit_sound" (readable HO.HitSound.parse)] = hoHeadColumns.map (Column.map HOErr.msg) := rfl
  rw [h, firstFault_map]
  cases firstFault hoHeadColumns ps with
  | some e => rfl
  | none =>
    simp only [Option.map_none]
    cases pieceKind ps with
    | none => rfl
    | some k => simp only [kindNamed_eq, firstFault_map]

theorem rgbSays_eq (s : Str) : rgbSays s = (rgbFault s).map RgbErr.msg := by
  unfold rgbSays rgbFault
  split
  · rfl
  cases after ',' (pastDigits s) with
  | none => rfl
  | some t =>
    dsimp only
    split
    · rfl
    cases after ',' (pastDigits t) with
    | none => rfl
    | some u => dsimp only; split <;> rfl

theorem colourSays_eq (s : Str) : colourSays s = (colourFault s).map Osu.ColourErr.msg := by
  have hc : ∀ s, colonSays s = (colonFault s).map Osu.ColourErr.msg := by
    intro s
    unfold colonSays colonFault
    cases after ':' (skipSp s) with
    | none => rfl
    | some t => dsimp only; rw [rgbSays_eq, Option.map_map]; rfl
  unfold colourSays colourFault
  split
  · split
    · exact hc _
    · rfl
  split
  · exact hc _
  split
  · exact hc _
  · rfl

/-! ## Line breaks -/

theorem natToStr_noLF (n : Nat) : '\n' ∉ natToStr n := by
  intro h
  have := natToStr_digits n _ h
  exact absurd this (by decide)

theorem IntErr.msg_noLF (e : IntErr) : '\n' ∉ e.msg := by cases e <;> decide
theorem FieldErr.msg_noLF (e : FieldErr) : '\n' ∉ e.msg := by
  cases e with
  | parseInt e => exact e.msg_noLF
  | zeroOne e => cases e with
    | parseInt e => exact e.msg_noLF
    | invalidValue => decide
  | modeInt e => exact e.msg_noLF
  | countdownInt e => show '\n' ∉ c!"There was a problem parsing the `str` as an `Integer`"; decide
  | _ => decide

theorem generalMsg_noLF (e : KVErr FieldErr) : '\n' ∉ generalMsg e := by
  cases e with
  | field e => exact e.msg_noLF
  | _ => decide
theorem editorMsg_noLF (e : KVErr FieldErr) : '\n' ∉ editorMsg e := by
  cases e with
  | field e => exact e.msg_noLF
  | _ => decide
theorem metadataMsg_noLF (e : KVErr FieldErr) : '\n' ∉ metadataMsg e := by
  cases e with
  | field e => exact e.msg_noLF
  | _ => decide
theorem difficultyMsg_noLF (e : KVErr FieldErr) : '\n' ∉ difficultyMsg e := by
  cases e with
  | field e => exact e.msg_noLF
  | _ => decide

theorem NEErr.msg_noLF (e : NEErr) : '\n' ∉ e.msg := by cases e <;> decide
theorem audioMsg_noLF (e : NEErr) : '\n' ∉ audioMsg e := by cases e <;> decide
theorem CmdErr.msg_noLF (e : CmdErr) : '\n' ∉ e.msg := by cases e <;> decide
theorem ObjErr.msg_noLF (e : ObjErr) : '\n' ∉ e.msg := by cases e <;> decide
theorem TPErr.msg_noLF (e : TPErr) : '\n' ∉ e.msg := by cases e <;> decide
theorem HOErr.msg_noLF (e : HOErr) : '\n' ∉ e.msg := by cases e <;> decide
theorem RgbErr.msg_noLF (e : RgbErr) : '\n' ∉ e.msg := by cases e <;> decide

theorem ColourErr.msg_noLF (e : Osu.ColourErr) : '\n' ∉ e.msg := by
  cases e with
  | rgb e => exact e.msg_noLF
  | _ => decide

theorem PushErr.msg_noLF (e : PushErr) : '\n' ∉ e.msg := by
  unfold PushErr.msg
  simp only [List.mem_append, not_or]
  exact ⟨⟨⟨by decide, natToStr_noLF _⟩, by decide⟩, natToStr_noLF _⟩

theorem EvErr.msg_noLF (e : EvErr) : '\n' ∉ e.msg := by
  cases e with
  | storyboardCmdWithNoSprite => decide
  | unknownEventType => decide
  | push e => exact PushErr.msg_noLF e
  | command e => exact CmdErr.msg_noLF e
  | object e => exact ObjErr.msg_noLF e
  | audioSample e => exact audioMsg_noLF e
  | background e | video e | break_ e | colourTransformation e | spriteLegacy e | animationLegacy e | sampleLegacy e =>
    exact NEErr.msg_noLF e

theorem FileErr.msg_noLF (e : FileErr) : '\n' ∉ e.msg := by
  cases e with
  | general e => exact generalMsg_noLF e
  | editor e => exact editorMsg_noLF e
  | metadata e => exact metadataMsg_noLF e
  | difficulty e => exact difficultyMsg_noLF e
  | events e => exact EvErr.msg_noLF e
  | timingPoints e => exact e.msg_noLF
  | colours e => exact ColourErr.msg_noLF e
  | hitobjects e => exact e.msg_noLF
  | _ => decide

theorem OsbErr.msg_noLF (e : OsbErr) : '\n' ∉ e.msg := by
  cases e with
  | «variable» e => cases e <;> decide
  | events e => exact EvErr.msg_noLF e
  | _ => decide

/-! ## Recovering errors from their texts -/

/-- A text is unambiguous among the values of a list if each value is found again by its text. -/
theorem inj_of_find {E : Type} [DecidableEq E] (all : List E) (msg : E → Str)
    (h : ∀ e, all.find? (fun x => decide (msg x = msg e)) = some e) {a b : E} (hm : msg a = msg b) : a = b := by
  have ha := h a
  rw [hm, h b] at ha
  exact (Option.some.inj ha).symm

theorem TPErr.msg_inj {a b : TPErr} : a.msg = b.msg → a = b :=
  inj_of_find [.invalidTime, .missingBeatLength, .missingMeter, .invalidMeter, .missingSampleSet, .invalidSampleSet,
    .missingSampleIndex, .invalidSampleIndex, .missingVolume, .invalidVolume, .missingEffects, .invalidEffects,
    .missingUninherited, .invalidUninherited] TPErr.msg (fun e => by cases e <;> decide)

theorem HOErr.msg_inj {a b : HOErr} : a.msg = b.msg → a = b :=
  inj_of_find [.invalidHitSound, .missingHitSound, .missingHitSample, .invalidHitSample, .invalidX, .missingX,
    .invalidY, .missingY, .missingObjType, .invalidObjType, .missingTime, .invalidTime, .invalidCurveType,
    .missingCurveType, .invalidCurvePoint, .missingCurvePoint, .invalidEdgeSound, .missingEdgeSound, .invalidEdgeSet,
    .missingEdgeSet, .invalidSlidesCount, .missingSlidesCount, .invalidLength, .missingLength, .invalidEndTime,
    .missingEndTime, .unknownObjType] HOErr.msg (fun e => by cases e <;> decide)

theorem CmdErr.msg_inj {a b : CmdErr} : a.msg = b.msg → a = b :=
  inj_of_find [.unknownCommandType, .missingStartTime, .invalidStartTime, .missingLoopCount, .invalidLoopCount,
    .missingTriggerType, .invalidTriggerType, .invalidGroupNumber, .missingEndTime, .invalidEndTime, .missingEasing,
    .invalidEasing, .missingRed, .missingGreen, .missingBlue, .invalidRed, .invalidGreen, .invalidBlue,
    .invalidContinuingColours, .missingParameterType, .invalidParameterType, .invalidContinuingParameters,
    .missingMoveX, .invalidMoveX, .missingMoveY, .invalidMoveY, .invalidContinuingMove, .missingScaleX, .invalidScaleX,
    .missingScaleY, .invalidScaleY, .invalidContinuingScales, .missingStartOpacity, .invalidStartOpacity,
    .invalidContinuingOpacities, .missingStartScale, .invalidStartScale, .missingStartRotation, .invalidStartRotation,
    .invalidContinuingRotation] CmdErr.msg (fun e => by cases e <;> decide)

theorem NEErr.msg_inj {a b : NEErr} : a.msg = b.msg → a = b :=
  inj_of_find [.wrongEventType, .missingStartTime, .invalidStartTime, .missingFileName, .missingX, .invalidX, .missingY,
    .invalidY, .missingEndTime, .invalidEndTime, .missingRed, .invalidRed, .missingGreen, .invalidGreen, .missingBlue,
    .invalidBlue, .missingLayer, .invalidLayer, .missingOrigin, .invalidOrigin, .missingTime, .invalidTime,
    .missingVolume, .invalidVolume] NEErr.msg (fun e => by cases e <;> decide)

theorem audioMsg_inj {a b : NEErr} : audioMsg a = audioMsg b → a = b :=
  inj_of_find [.wrongEventType, .missingStartTime, .invalidStartTime, .missingFileName, .missingX, .invalidX, .missingY,
    .invalidY, .missingEndTime, .invalidEndTime, .missingRed, .invalidRed, .missingGreen, .invalidGreen, .missingBlue,
    .invalidBlue, .missingLayer, .invalidLayer, .missingOrigin, .invalidOrigin, .missingTime, .invalidTime,
    .missingVolume, .invalidVolume] audioMsg (fun e => by cases e <;> decide)

theorem ObjErr.msg_inj {a b : ObjErr} : a.msg = b.msg → a = b :=
  inj_of_find [.unknownObjectType, .missingLayer, .invalidLayer, .missingOrigin, .invalidOrigin, .missingFilePath,
    .missingPositionX, .invalidPositionX, .missingPositionY, .invalidPositionY, .missingFrameCount, .invalidFrameCount,
    .missingFrameDelay, .invalidFrameDelay, .missingLoopType, .invalidLoopType] ObjErr.msg (fun e => by cases e <;> decide)

theorem ColourErr.msg_inj {a b : Osu.ColourErr} : a.msg = b.msg → a = b :=
  inj_of_find [.invalidComboCount, .invalidColonSeparator, .rgb .invalidRed, .rgb .invalidGreen, .rgb .invalidBlue,
    .rgb .missingGreen, .rgb .missingBlue, .unknownColourType] Osu.ColourErr.msg
    (fun e => by
      cases e with
      | rgb e => cases e <;> decide
      | _ => decide)

/-- Digits up to another character are determined by the whole. -/
theorem digits_app_inj {a b x y : Str} {c : Char} (hc : (digitVal c).isSome = false)
    (ha : ∀ d ∈ a, (digitVal d).isSome) (hb : ∀ d ∈ b, (digitVal d).isSome) (h : a ++ c :: x = b ++ c :: y) :
    a = b ∧ x = y := by
  induction a generalizing b with
  | nil =>
    cases b with
    | nil => simpa using h
    | cons d b =>
      simp only [List.nil_append, List.cons_append, List.cons.injEq] at h
      have := hb d (.head _)
      rw [← h.1, hc] at this
      cases this
  | cons d a ih =>
    cases b with
    | nil =>
      simp only [List.nil_append, List.cons_append, List.cons.injEq] at h
      have := ha d (.head _)
      rw [h.1, hc] at this
      cases this
    | cons d' b =>
      simp only [List.cons_append, List.cons.injEq] at h
      obtain ⟨rfl, h⟩ := h
      obtain ⟨rfl, rfl⟩ := ih (fun _ h => ha _ (.tail _ h)) (fun _ h => hb _ (.tail _ h)) h
      exact ⟨rfl, rfl⟩

theorem natToStr_inj {m n : Nat} (h : natToStr m = natToStr n) : m = n := by
  have hm := parseUnsigned_natToStr (max m n) m (by omega)
  have hn := parseUnsigned_natToStr (max m n) n (by omega)
  rw [h, hn] at hm
  cases hm
  rfl

end Osu
