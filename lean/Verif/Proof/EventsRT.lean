/-
Events: what is printed is read back.
-/
import Verif.Proof.EventsGrammar
import Verif.Proof.CmdsRT
import Verif.Proof.Tree
import Verif.Proof.HitObjectsRT

namespace Osu
open SB Ev Parser
variable {D : Type} [DecLib D]

/-! ### Paths -/

theorem contains_blank (p : Str) : contains [' '] p = true ↔ ' ' ∈ p := by
  induction p with
  | nil => simp [contains]
  | cons c p ih =>
    simp only [contains, Bool.or_eq_true, ih, List.mem_cons, List.isPrefixOf, Bool.and_true, beq_iff_eq]

theorem startsWith_one (p : Str) (c : Char) : startsWith p [c] = true ↔ p.head? = some c := by
  cases p with
  | nil => simp [startsWith, List.isPrefixOf]
  | cons d p =>
    simp only [startsWith, List.isPrefixOf, Bool.and_true, beq_iff_eq, List.head?_cons, Option.some.injEq]
    exact ⟨Eq.symm, Eq.symm⟩

theorem endsWith_one (p : Str) (c : Char) : endsWith p [c] = true ↔ p.getLast? = some c := by
  rw [List.getLast?_eq_head?_reverse, ← startsWith_one, endsWith, startsWith, List.isSuffixOf, List.reverse_singleton]

theorem path_toStr (p : FilePath) : FilePath.toStr p = quotePath p := by
  unfold FilePath.toStr quotePath
  have h : ((contains [' '] p && !(startsWith p ['"'] && endsWith p ['"'])) = true) ↔ ¬ PathPlain p := by
    rw [Bool.and_eq_true, contains_blank, Bool.not_eq_true', Bool.and_eq_false_iff]
    unfold PathPlain
    rw [← startsWith_one, ← endsWith_one]
    cases startsWith p ['"'] <;> cases endsWith p ['"'] <;> simp
  by_cases hp : PathPlain p
  · rw [if_pos hp]
    have : ¬ ((contains [' '] p && !(startsWith p ['"'] && endsWith p ['"'])) = true) := by rw [h]; exact not_not_intro hp
    exact if_neg this
  · rw [if_neg hp]
    exact if_pos (h.2 hp)

theorem quotePath_plain (p : FilePath) : PathPlain (quotePath p) := by
  unfold quotePath
  split
  · assumption
  · right
    refine ⟨rfl, ?_⟩
    rw [← List.cons_append]; exact getLast?_snoc _ _

theorem quotePath_of_plain {p : FilePath} (h : PathPlain p) : quotePath p = p := if_pos h

theorem quotePath_chars {cr : Bool} {p : FilePath} (h : PathWritableC cr p) : AllC (fieldC cr) (quotePath p) := by
  unfold quotePath
  split
  · exact h
  · exact .cons (fieldC_of (by decide)) (AllC.append h (.cons (fieldC_of (by decide)) .nil))

/-! ### Pieces of a first line -/

theorem timeFits {v : Nat} {t : Int32} (h : TimeFits v t) :
    ∃ n, OldTime v n t ∧ Ev.timeToStr v t = some (i32ToStr n) := by
  obtain ⟨n, hn⟩ := h
  refine ⟨n, hn, ?_⟩
  unfold Ev.timeToStr
  unfold OldTime at hn
  have hv : (3 ≤ v ∧ v ≤ 4) ↔ (v = 3 ∨ v = 4) := by omega
  simp only [hv]
  have b1 := n.toInt_lt
  have b2 := n.le_toInt
  have b3 := t.toInt_lt
  by_cases h : v = 3 ∨ v = 4
  · simp only [h, if_true] at hn ⊢
    rw [if_pos (by omega)]
    congr 2
    apply Int32.toInt_inj.1
    rw [Int32.toInt_sub]
    have : (24 : Int32).toInt = 24 := by decide
    rw [this, Int.bmod_eq_of_le (by omega) (by omega)]
    omega
  · simp only [h, if_false] at hn ⊢
    congr 2
    apply Int32.toInt_inj.1
    omega

theorem timeNotFits {v : Nat} {t : Int32} (h : ¬ TimeFits v t) : Ev.timeToStr v t = none := by
  unfold Ev.timeToStr
  unfold TimeFits OldTime at h
  have hv : (3 ≤ v ∧ v ≤ 4) ↔ (v = 3 ∨ v = 4) := by omega
  simp only [hv]
  have b1 := t.le_toInt
  have b3 := t.toInt_lt
  by_cases hv : v = 3 ∨ v = 4
  · simp only [hv, if_true] at h ⊢
    rw [if_neg]
    intro hle
    apply h
    refine ⟨Int32.ofInt (t.toInt - 24), ?_⟩
    have hz : ((Int32.size : Nat) : Int) = 4294967296 := by decide
    rw [Int32.toInt_ofInt, Int.bmod_eq_of_le (by rw [hz]; omega) (by rw [hz]; omega)]
    omega
  · exact absurd ⟨t, by simp [hv]⟩ h

theorem field_usize (n : UInt64) : AllC fieldChar (usizeToStr n) := fun c hc => by
  have := TriggerType.alnum_dig (natToStr_digits _ c hc)
  simp only [Bool.and_eq_true] at this
  exact this.2

theorem layerLegacy_reads (l : LayerLegacy) : CodeReads legacyLayers l.shw l :=
  ⟨l.code, parseUsize_usizeToStr _, by cases l <;> rfl⟩

theorem originLegacy_reads (l : OriginLegacy) : CodeReads legacyOrigins l.shw l :=
  ⟨l.code, parseUsize_usizeToStr _, by cases l <;> rfl⟩

theorem audioLayer_reads (l : AudioLayer) : CodeReads audioLayers (usizeToStr l.code) l :=
  ⟨l.code, parseUsize_usizeToStr _, by cases l <;> rfl⟩

theorem vol_reads {v : Volume} (h : v.val.toNat ≤ 100) : VolReads v.shw v := ⟨parseU8_u8ToStr _, h⟩

theorem layer_field (l : Layer) : AllC fieldChar l.shw := by cases l <;> decide

theorem origin_reads {o : Origin} (h : OriginWritable o) : OriginReads o.shw o ∧ AllC fieldChar o.shw := by
  obtain ⟨t, sh⟩ := o
  cases t with
  | inl t =>
    cases sh with
    | false =>
      refine ⟨?_, ?_⟩
      · exact .name t
      · cases t <;> decide
    | true =>
      refine ⟨?_, i32_field _⟩
      refine .code (n := t.toInt) (parseI32_i32ToStr _) ?_ ?_
      · cases t <;> decide
      · cases t <;> rfl
  | inr n =>
    obtain ⟨h1, h2⟩ := h
    subst h1
    exact ⟨.other (parseI32_i32ToStr _) h2, i32_field _⟩

/-- The pieces of a printed position. -/
theorem pos_pieces {cr : Bool} {o : Option (Position D)} (h : PosWritableC cr o) :
    ∃ ps, positionStr o = preC ',' ps ∧ (∀ q ∈ ps, NoC ',' q) ∧ AllC (lastC cr) (preC ',' ps) ∧ PosReads ps o := by
  cases o with
  | none => exact ⟨[], rfl, by simp, .nil, .none⟩
  | some p =>
    obtain ⟨hx, hy⟩ := h
    have cx := hx.chars fun _ => fieldC_dec (cr := cr)
    have cy := hy.chars fun c hc => lastC_of_field (cr := cr) (fieldC_dec hc)
    cases hs : splitOnC ',' p.y.toStr with
    | nil => exact absurd hs (splitOnC_ne_nil _ _)
    | cons y ys =>
      have hj := join_splitOnC ',' p.y.toStr
      rw [hs] at hj
      obtain ⟨e, h1, h2⟩ := splitOnC_iff.1 hs
      refine ⟨p.x.toStr :: y :: ys, ?_, ?_, ?_, ?_⟩
      · simp only [positionStr, preC_cons, e, List.append_assoc, List.cons_append, List.nil_append]
      · intro q hq
        simp only [List.mem_cons] at hq
        rcases hq with rfl | rfl | hq
        · exact noComma_of_fieldC cx
        · exact h1
        · exact h2 q hq
      · rw [preC_cons, preC_cons, ← e]
        exact .cons (lastC_of (by decide)) ((fieldC_last cx).append (.cons (lastC_of (by decide)) cy))
      · have := PosReads.some (D := D) p.x.toStr y ys
        rw [hj, Decimal.ofStr_toStr hx.wf, Decimal.ofStr_toStr hy.wf] at this
        exact this

/-! ### First lines -/

/-- The variables used when printing the commands of an event. -/
def cmdVars (vars : List Variable) : Event D → List Variable
  | .background _ => []
  | .video _ => []
  | _ => vars

theorem preC_lastC {cr : Bool} {ps : List Str} (h : ∀ x ∈ ps, AllC (lastC cr) x) : AllC (lastC cr) (preC ',' ps) := by
  induction ps with
  | nil => exact .nil
  | cons x l ih =>
    rw [preC_cons]
    exact .cons (lastC_of (by decide)) ((h x (by simp)).append (ih fun y hy => h y (by simp [hy])))

/-- A printed first line that is read as the event without its commands. -/
structure HeadText (cr : Bool) (v : Nat) (e : Event D) (h : Str) : Prop where
  parse : parseEvent v h = .ok ((quoted e).setCommands [])
  chars : AllC (lastC cr) h
  first : ∃ c t, h = c :: t ∧ c ≠ '/' ∧ Command.isIndent c = false ∧ isWs c = false

theorem headText {cr : Bool} {v : Nat} {e : Event D} {p : Str} {qs : List Str} (hp : AllC fieldChar p) (hqs : ∀ q ∈ qs, NoC ',' q)
    (hc : AllC (lastC cr) (preC ',' qs)) (hr : EvReads v (p :: qs) ((quoted e).setCommands []))
    (hf : ∃ c t, p = c :: t ∧ c ≠ '/' ∧ Command.isIndent c = false ∧ isWs c = false) :
    HeadText cr v e (p ++ preC ',' qs) := by
  refine ⟨?_, (wide_last (field_last hp)).append hc, ?_⟩
  · rw [event_reads, line_split0 (noComma_of_field hp) hqs]; exact hr
  · obtain ⟨c, t, rfl, h⟩ := hf
    exact ⟨c, t ++ preC ',' qs, rfl, h⟩

theorem fields_preC {cr : Bool} {qs : List Str} (h : ∀ q ∈ qs, AllC (fieldC cr) q) :
    (∀ q ∈ qs, NoC ',' q) ∧ AllC (lastC cr) (preC ',' qs) :=
  ⟨fun q hq => noComma_of_fieldC (h q hq), preC_lastC fun q hq => fieldC_last (h q hq)⟩

theorem fields_append {cr : Bool} {as bs : List Str} (ha : (∀ q ∈ as, NoC ',' q) ∧ AllC (lastC cr) (preC ',' as))
    (hb : (∀ q ∈ bs, NoC ',' q) ∧ AllC (lastC cr) (preC ',' bs)) :
    (∀ q ∈ as ++ bs, NoC ',' q) ∧ AllC (lastC cr) (preC ',' (as ++ bs)) := by
  refine ⟨?_, by rw [preC_append]; exact ha.2.append hb.2⟩
  intro q hq
  rcases List.mem_append.1 hq with h | h
  · exact ha.1 q h
  · exact hb.1 q h

theorem withCmds_nil (vars : List Variable) (h : Str) : withCmds (D := D) vars h [] = some h := by
  simp [withCmds, cmdsToStr, printCmds, join]

/-- A writable event that is not a comment prints to a first line and its commands. -/
theorem head_print {cr : Bool} {v : Nat} {e : Event D} (hw : HeadWritableC cr v e) (hc : ∀ s, e ≠ .comment s) :
    ∃ h, HeadText cr v e h ∧ ∀ vars, Event.shw v vars e = (withCmds (cmdVars vars e) h (cmdsOf e)).map some := by
  cases e with
  | comment s => exact absurd rfl (hc s)
  | background b =>
    obtain ⟨hp, hpos⟩ := hw
    obtain ⟨ps, e1, e2, e3, e4⟩ := pos_pieces hpos
    have hf := fields_append (fields_preC (qs := [i32ToStr b.startTime, quotePath b.fileName]) (by
      intro q hq; simp at hq; rcases hq with rfl | rfl
      · exact wide_field (i32_field _)
      · exact quotePath_chars hp)) ⟨e2, e3⟩
    refine ⟨_, headText (p := c!"0") (qs := [i32ToStr b.startTime, quotePath b.fileName] ++ ps) (by decide) hf.1 hf.2 ?_
      ⟨'0', [], rfl, by decide⟩, ?_⟩
    · exact .background (parseI32_i32ToStr _) e4
    · intro vars
      simp only [Event.shw, Background.shwCmd, cmdVars, cmdsOf, Event.commands, Option.getD_some, path_toStr, e1]
      congr 2
      simp [preC_cons]
  | video b =>
    obtain ⟨ht, hp, hpos⟩ := hw
    obtain ⟨ps, e1, e2, e3, e4⟩ := pos_pieces hpos
    obtain ⟨n, hn, hs⟩ := timeFits ht
    have hf := fields_append (fields_preC (qs := [i32ToStr n, quotePath b.fileName]) (by
      intro q hq; simp at hq; rcases hq with rfl | rfl
      · exact wide_field (i32_field _)
      · exact quotePath_chars hp)) ⟨e2, e3⟩
    refine ⟨_, headText (p := if b.shortHand then c!"1" else c!"Video") (qs := [i32ToStr n, quotePath b.fileName] ++ ps)
      (by cases b.shortHand <;> decide) hf.1 hf.2 ?_ ?_, ?_⟩
    · exact .video rfl (parseI32_i32ToStr _) hn e4
    · cases b.shortHand
      · exact ⟨'V', c!"ideo", rfl, by decide⟩
      · exact ⟨'1', [], rfl, by decide⟩
    · intro vars
      simp only [Event.shw, Video.shwCmd, cmdVars, cmdsOf, Event.commands, Option.getD_some, path_toStr, e1, hs,
        Option.map_some, Option.bind_some]
      congr 2
      simp [preC_cons]
  | break_ b =>
    obtain ⟨ht, ht'⟩ := hw
    obtain ⟨n, hn, hs⟩ := timeFits ht
    obtain ⟨n', hn', hs'⟩ := timeFits ht'
    have hf := fields_preC (cr := cr) (qs := [i32ToStr n, i32ToStr n']) (by
      intro q hq; simp at hq; rcases hq with rfl | rfl <;> exact wide_field (i32_field _))
    refine ⟨_, headText (p := if b.shortHand then c!"2" else c!"Break") (qs := [i32ToStr n, i32ToStr n'])
      (by cases b.shortHand <;> decide) hf.1 hf.2 ?_ ?_, ?_⟩
    · exact .break_ rfl (parseI32_i32ToStr _) hn (parseI32_i32ToStr _) hn'
    · cases b.shortHand
      · exact ⟨'B', c!"reak", rfl, by decide⟩
      · exact ⟨'2', [], rfl, by decide⟩
    · intro vars
      simp only [Event.shw, Break.shw, cmdVars, cmdsOf, Event.commands, Option.getD_none, withCmds_nil, hs, hs',
        Option.map_some, Option.bind_some, Option.bind_eq_bind]
      congr 2
      simp [preC_cons, preC_nil]
  | colourTransformation c =>
    obtain ⟨hv, ht⟩ := hw
    obtain ⟨n, hn, hs⟩ := timeFits ht
    have hf := fields_preC (cr := cr) (qs := [i32ToStr n, u8ToStr c.red, u8ToStr c.green, u8ToStr c.blue]) (by
      intro q hq; simp at hq; rcases hq with rfl | rfl | rfl | rfl
      · exact wide_field (i32_field _)
      all_goals exact wide_field (Command.field_u8 _))
    refine ⟨_, headText (p := c!"3") (qs := [i32ToStr n, u8ToStr c.red, u8ToStr c.green, u8ToStr c.blue])
      (by decide) hf.1 hf.2 ?_ ⟨'3', [], rfl, by decide⟩, ?_⟩
    · exact .colourTransformation (parseI32_i32ToStr _) hn (parseU8_u8ToStr _) (parseU8_u8ToStr _) (parseU8_u8ToStr _)
    · intro vars
      simp only [Event.shw, ColourTransformation.shw, cmdVars, cmdsOf, Event.commands, Option.getD_none, withCmds_nil, hs,
        if_pos hv, Option.map_some]
      congr 2
      simp [preC_cons, preC_nil]
  | spriteLegacy x =>
    obtain ⟨hp, hpos⟩ := hw
    obtain ⟨ps, e1, e2, e3, e4⟩ := pos_pieces hpos
    have hf := fields_append (fields_preC (qs := [x.layer.shw, x.origin.shw, quotePath x.fileName]) (by
      intro q hq; simp at hq; rcases hq with rfl | rfl | rfl
      · exact wide_field (field_usize _)
      · exact wide_field (field_usize _)
      · exact quotePath_chars hp)) ⟨e2, e3⟩
    refine ⟨_, headText (p := c!"4") (qs := [x.layer.shw, x.origin.shw, quotePath x.fileName] ++ ps) (by decide) hf.1 hf.2 ?_
      ⟨'4', [], rfl, by decide⟩, ?_⟩
    · exact .spriteLegacy (layerLegacy_reads _) (originLegacy_reads _) e4
    · intro vars
      simp only [Event.shw, SpriteLegacy.shwCmd, cmdVars, cmdsOf, Event.commands, Option.getD_some, path_toStr, e1]
      congr 2
      simp [preC_cons]
  | animationLegacy x =>
    obtain ⟨hp, hpos⟩ := hw
    obtain ⟨ps, e1, e2, e3, e4⟩ := pos_pieces hpos
    have hf := fields_append (fields_preC (qs := [x.layer.shw, x.origin.shw, quotePath x.fileName]) (by
      intro q hq; simp at hq; rcases hq with rfl | rfl | rfl
      · exact wide_field (field_usize _)
      · exact wide_field (field_usize _)
      · exact quotePath_chars hp)) ⟨e2, e3⟩
    refine ⟨_, headText (p := c!"5") (qs := [x.layer.shw, x.origin.shw, quotePath x.fileName] ++ ps) (by decide) hf.1 hf.2 ?_
      ⟨'5', [], rfl, by decide⟩, ?_⟩
    · exact .animationLegacy (layerLegacy_reads _) (originLegacy_reads _) e4
    · intro vars
      simp only [Event.shw, SpriteLegacy.shwCmd, cmdVars, cmdsOf, Event.commands, Option.getD_some, path_toStr, e1]
      congr 2
      simp [preC_cons]
  | sampleLegacy x =>
    obtain ⟨hx, hp, hv⟩ := hw
    have cx := hx.chars fun _ => fieldC_dec (cr := cr)
    obtain ⟨ps, e1, e2, e4⟩ : ∃ ps, x.shwCmd = c!"6," ++ x.time.toStr ++ [','] ++ x.layer.shw ++ [','] ++ quotePath x.fileName ++ preC ',' ps ∧
        (∀ q ∈ ps, AllC (fieldC cr) q) ∧ VolTail ps x.volume := by
      cases hvol : x.volume with
      | none => exact ⟨[], by simp [SampleLegacy.shwCmd, path_toStr, hvol, preC_nil], by simp, .none⟩
      | some vol =>
        refine ⟨[vol.shw], by simp [SampleLegacy.shwCmd, path_toStr, hvol, preC_cons, preC_nil], ?_, .some (vol_reads (hv _ hvol))⟩
        intro q hq; simp at hq; subst hq; exact wide_field (Command.field_u8 _)
    have hf := fields_append (fields_preC (qs := [x.time.toStr, x.layer.shw, quotePath x.fileName]) (by
      intro q hq; simp at hq; rcases hq with rfl | rfl | rfl
      · exact cx
      · exact wide_field (field_usize _)
      · exact quotePath_chars hp)) (fields_preC e2)
    refine ⟨_, headText (p := c!"6") (qs := [x.time.toStr, x.layer.shw, quotePath x.fileName] ++ ps) (by decide) hf.1 hf.2 ?_
      ⟨'6', [], rfl, by decide⟩, ?_⟩
    · have := EvReads.sampleLegacy (D := D) (v := v) (t := x.time.toStr) (f := quotePath x.fileName) (layerLegacy_reads x.layer) e4
      rw [Decimal.ofStr_toStr hx.wf] at this
      exact this
    · intro vars
      simp only [Event.shw, cmdVars, cmdsOf, Event.commands, Option.getD_some, e1]
      congr 2
      simp [preC_cons]
  | object o =>
    obtain ⟨ho, hx, hy, hob⟩ := hw
    obtain ⟨l, og, ⟨x, y⟩, ty, cmds⟩ := o
    simp only at ho hx hy hob
    have cx := hx.chars fun _ => fieldC_dec (cr := cr)
    have cy := hy.chars fun _ => fieldC_dec (cr := cr)
    obtain ⟨o1, o2⟩ := origin_reads ho
    cases ty with
    | sprite f =>
      have hf := fields_preC (cr := cr) (qs := [l.shw, og.shw, quotePath f, x.toStr, y.toStr]) (by
        intro q hq; simp at hq; rcases hq with rfl | rfl | rfl | rfl | rfl
        · exact wide_field (layer_field _)
        · exact wide_field o2
        · exact quotePath_chars hob
        · exact cx
        · exact cy)
      refine ⟨_, headText (p := c!"Sprite") (qs := [l.shw, og.shw, quotePath f, x.toStr, y.toStr])
        (by decide) hf.1 hf.2 ?_ ⟨'S', c!"prite", rfl, by decide⟩, ?_⟩
      · have := EvReads.sprite (D := D) (v := v) (l := l) (f := quotePath f) (x := x.toStr) (y := y.toStr) (more := []) o1
        rw [Decimal.ofStr_toStr hx.wf, Decimal.ofStr_toStr hy.wf] at this
        exact this
      · intro vars
        simp only [Event.shw, Object.shwCmd, cmdVars, cmdsOf, Event.commands, Option.getD_some, path_toStr]
        congr 2
        simp [preC_cons, preC_nil]
    | animation n d lt f =>
      have cd : AllC (fieldC cr) (DecLib.shw d) := fun c hc => fieldC_dec (cr := cr) (DecLib.shw_chars _ c hc)
      have hf := fields_preC (cr := cr) (qs := [l.shw, og.shw, quotePath f, x.toStr, y.toStr, u32ToStr n, DecLib.shw d, lt.shw]) (by
        intro q hq; simp at hq; rcases hq with rfl | rfl | rfl | rfl | rfl | rfl | rfl | rfl
        · exact wide_field (layer_field _)
        · exact wide_field o2
        · exact quotePath_chars hob.2
        · exact cx
        · exact cy
        · exact wide_field (Command.field_u32 _)
        · exact cd
        · exact wide_field (by cases lt <;> decide))
      refine ⟨_, headText (p := c!"Animation") (qs := [l.shw, og.shw, quotePath f, x.toStr, y.toStr, u32ToStr n, DecLib.shw d, lt.shw])
        (by decide) hf.1 hf.2 ?_ ⟨'A', c!"nimation", rfl, by decide⟩, ?_⟩
      · have := EvReads.animation (D := D) (v := v) (l := l) (f := quotePath f) (x := x.toStr) (y := y.toStr) o1
          (parseU32_u32ToStr n) (DecLib.parse_shw hob.1) (.some lt)
        rw [Decimal.ofStr_toStr hx.wf, Decimal.ofStr_toStr hy.wf] at this
        exact this
      · intro vars
        simp only [Event.shw, Object.shwCmd, cmdVars, cmdsOf, Event.commands, Option.getD_some, path_toStr]
        congr 2
        simp [preC_cons, preC_nil]
  | audioSample a =>
    obtain ⟨hp, hv⟩ := hw
    have hf := fields_preC (cr := cr) (qs := [i32ToStr a.time, usizeToStr a.layer.code, quotePath a.filepath, a.volume.shw]) (by
      intro q hq; simp at hq; rcases hq with rfl | rfl | rfl | rfl
      · exact wide_field (i32_field _)
      · exact wide_field (field_usize _)
      · exact quotePath_chars hp
      · exact wide_field (Command.field_u8 _))
    refine ⟨_, headText (p := c!"Sample") (qs := [i32ToStr a.time, usizeToStr a.layer.code, quotePath a.filepath, a.volume.shw])
      (by decide) hf.1 hf.2 ?_ ⟨'S', c!"ample", rfl, by decide⟩, ?_⟩
    · exact .audioSample (parseI32_i32ToStr _) (audioLayer_reads _) (.some (vol_reads hv))
    · intro vars
      simp only [Event.shw, AudioSample.shw, cmdVars, cmdsOf, Event.commands, Option.getD_none, withCmds_nil, path_toStr]
      simp [preC_cons, preC_nil]

/-! ### Command lines -/

/-- A printed command line that is read as the command. -/
structure CmdText [UniLib] (cr : Bool) (vars vars' : List Variable) (k : Nat) (c : Command D) : Prop where
  parse : cmdParse vars (cmdLine vars' k c) = .ok c
  chars : AllC (lastC cr) (cmdLine vars' k c)
  indent : ((cmdLine vars' k c).takeWhile Command.isIndent).length = k
  pos : 1 ≤ k

theorem sliceFrom_ascii {p : Str} (s : Str) (h : ∀ c ∈ p, c.utf8Size = 1) : sliceFrom p.length (p ++ s) = some s := by
  induction p with
  | nil => cases s <;> simp [sliceFrom]
  | cons c p ih =>
    have hc := h c (by simp)
    rw [List.length_cons, List.cons_append, sliceFrom, hc, if_pos (by omega), Nat.add_sub_cancel]
    exact ih fun d hd => h d (by simp [hd])

theorem withoutHeader_ascii {p : Str} (s : Str) (hp : NoC ',' p) (h : ∀ c ∈ p, c.utf8Size = 1) :
    withoutHeader (p ++ ',' :: s) = some s := by
  have hi : (p ++ ',' :: s).findIdx? (· == ',') = some p.length := by
    rw [List.findIdx?_append]
    have : p.findIdx? (· == ',') = none := by
      rw [List.findIdx?_eq_none_iff]
      intro c hc
      have := hp c hc
      simpa using this
    rw [this]
    simp [List.findIdx?_cons]
  rw [withoutHeader, hi]
  have : p ++ ',' :: s = (p ++ [',']) ++ s := by simp
  have hl : p.length + 1 = (p ++ [',']).length := by simp
  simp only [this, hl]
  refine sliceFrom_ascii s ?_
  intro c hc
  rcases List.mem_append.1 hc with hc | hc
  · exact h c hc
  · simp at hc; subst hc; decide

omit [DecLib D] in
theorem header_ascii (c : Command D) : ∀ x ∈ c.header, x.utf8Size = 1 ∧ fieldChar x = true ∧ Command.isIndent x = false ∧
    isWs x = false := by
  obtain ⟨st, p⟩ := c
  cases p <;> (simp only [Command.header]; decide)

omit [DecLib D] in
theorem header_ne (c : Command D) : c.header ≠ [] := by
  obtain ⟨st, p⟩ := c
  cases p <;> (simp only [Command.header]; decide)

theorem spaces_mem {k : Nat} {c : Char} (h : c ∈ spaces k) : c = ' ' := (List.mem_replicate.1 h).2

theorem cmdLine_eq (vars : List Variable) (k : Nat) (c : Command D) :
    cmdLine vars k c = (spaces k ++ c.header) ++ ',' :: Command.variableReplace c.body vars := by
  simp [cmdLine, Command.toStrVars]

theorem cmdLine_noHeader (vars : List Variable) (k : Nat) (c : Command D) :
    withoutHeader (cmdLine vars k c) = some (Command.variableReplace c.body vars) := by
  rw [cmdLine_eq]
  have h : ∀ x ∈ spaces k ++ c.header, x.utf8Size = 1 ∧ fieldChar x = true := by
    intro x hx
    rcases List.mem_append.1 hx with hx | hx
    · rw [spaces_mem hx]; decide
    · exact ⟨(header_ascii c x hx).1, (header_ascii c x hx).2.1⟩
  exact withoutHeader_ascii _ (noComma_of_field fun x hx => (h x hx).2) fun x hx => (h x hx).1

theorem cmdLine_indent (vars : List Variable) (k : Nat) (c : Command D) :
    ((cmdLine vars k c).takeWhile Command.isIndent).length = k := by
  have h1 : AllC Command.isIndent (spaces k) := fun x hx => by rw [spaces_mem hx]; rfl
  cases hh : c.header with
  | nil => exact absurd hh (header_ne c)
  | cons x t =>
    have hx := (header_ascii c x (by rw [hh]; simp)).2.2.1
    have e : cmdLine vars k c = spaces k ++ x :: (t ++ ',' :: Command.variableReplace c.body vars) := by
      rw [cmdLine_eq, hh]; simp
    rw [e, takeWhile_app h1 (.cons hx)]
    simp [spaces]

theorem cmdLine_chars {cr : Bool} {vars : List Variable} {k : Nat} {c : Command D}
    (h : AllC (lastC cr) (Command.variableReplace c.body vars)) : AllC (lastC cr) (cmdLine vars k c) := by
  rw [cmdLine_eq]
  refine AllC.append ?_ (.cons (lastC_of (by decide)) h)
  intro x hx
  rcases List.mem_append.1 hx with hx | hx
  · rw [spaces_mem hx]; exact lastC_of (by decide)
  · exact lastC_of (lastChar_of_field (header_ascii c x hx).2.1)

theorem cmdLine_nb (vars : List Variable) (k : Nat) (c : Command D) : nonBlank (cmdLine vars k c) = true := by
  rw [nonBlank_iff, Ne, trim_eq_nil]
  intro hall
  have := hall ',' (by rw [cmdLine_eq]; simp)
  exact absurd this (by decide)

theorem body_chars [UniLib] {cr : Bool} {c : Command D} (hw : CmdWritableC cr c) : AllC (lastC cr) c.body := by
  obtain ⟨p, qs, h1, h2, h3, _⟩ := Command.print_fields hw
  have : AllC (lastC cr) c.shw := by
    rw [h1]; exact (fieldC_last h2).append (preC_lastC fun q hq => fieldC_last (h3 q hq))
  intro x hx
  refine this x ?_
  simp [Command.shw, Command.toStrVars, Command.variableReplace, hx]

/-- Without variables. -/
theorem cmdText [UniLib] {cr : Bool} {k : Nat} {c : Command D} (hw : CmdWritableC cr c) (hb : c.bare = c) (hk : 1 ≤ k) :
    CmdText cr [] [] k c := by
  refine ⟨?_, cmdLine_chars (body_chars hw), cmdLine_indent _ _ _, hk⟩
  have := Command.parse_shw hw (ind := spaces k) fun x hx => by rw [spaces_mem hx]; rfl
  rw [cmdParse, cmdLine_noHeader]
  simp only [substVars]
  rw [show cmdLine [] k c = spaces k ++ c.shw from rfl, this, hb]
  rfl

/-! ### The loop over the lines -/

omit [DecLib D] in
theorem commands_set {e : Event D} {cs : List (Command D)} (h : e.commands = some cs) (ds : List (Command D)) :
    (e.setCommands ds).commands = some ds := by
  cases e <;> simp only [Event.commands, reduceCtorEq] at h <;> rfl

omit [DecLib D] in
theorem set_setCommands (e : Event D) (cs ds : List (Command D)) : (e.setCommands cs).setCommands ds = e.setCommands ds := by
  cases e <;> rfl

omit [DecLib D] in
theorem setCommands_self (e : Event D) : e.setCommands (cmdsOf e) = e := by
  cases e <;> rfl

omit [DecLib D] in
theorem setCommands_none {e : Event D} (h : e.commands = none) (cs : List (Command D)) : e.setCommands cs = e := by
  cases e <;> simp only [Event.commands, reduceCtorEq] at h <;> rfl

omit [DecLib D] in
theorem cmdsOf_quoted (e : Event D) : cmdsOf (quoted e) = cmdsOf e := by
  cases e with
  | object o =>
    obtain ⟨l, og, p, ty, cs⟩ := o
    cases ty <;> rfl
  | _ => rfl

theorem trim_ne {l : Str} (h : nonBlank l = true) : trim l ≠ [] := nonBlank_iff.1 h

theorem stripPrefix_cons {c : Char} {t : Str} (h : c ≠ '/') : stripPrefix c!"//" (c :: t) = none := by
  simp [stripPrefix, List.isPrefixOf, Ne.symm h]

theorem headText_nb {cr : Bool} {v : Nat} {e : Event D} {h : Str} (ht : HeadText cr v e h) : nonBlank h = true := by
  obtain ⟨c, t, rfl, _, _, hw⟩ := ht.first
  rw [nonBlank_iff, Ne, trim_eq_nil]
  intro hall
  have := hall c (by simp)
  rw [hw] at this; cases this

theorem cleanEnds_of_noCR {s : Str} (h : '\r' ∉ s) : CleanEnds s := fun a b e => absurd (by rw [e]; simp) h

theorem CleanEnds.suffix {a b : Str} (h : CleanEnds (a ++ b)) : CleanEnds b := fun x y e =>
  h (a ++ x) y (by rw [e, List.append_assoc])

theorem CleanEnds.prefix {a b : Str} (h : CleanEnds (a ++ '\n' :: b)) : CleanEnds a := by
  intro x y e
  have := h x (y ++ '\n' :: b) (by rw [e]; simp)
  cases y with
  | nil => exact absurd rfl this.2
  | cons c y => exact ⟨by simp, this.2⟩

/-- A check for `CleanEnds`. -/
def cleanEndsB : Str → Bool
  | [] => true
  | '\r' :: s => !(s.isEmpty || s.head? == some '\n') && cleanEndsB s
  | _ :: s => cleanEndsB s

theorem cleanEndsB_ok {s : Str} (h : cleanEndsB s = true) : CleanEnds s := by
  induction s with
  | nil => intro a b e; have := congrArg List.length e; simp at this
  | cons c s ih =>
    intro a b e
    have hs : cleanEndsB s = true := by
      by_cases hc : c = '\r'
      · subst hc; simp [cleanEndsB] at h; exact h.2
      · rwa [cleanEndsB] at h; exact hc
    cases a with
    | nil =>
      cases e
      simp [cleanEndsB] at h
      exact h.1
    | cons x a =>
      injection e with _ e
      exact ih hs a b e

/-- The lines of a text none of whose lines ends in a carriage return. -/
theorem cleanEnds_join {ls : List Str} (h : CleanEnds (join ['\n'] ls)) : ∀ l ∈ ls, NoEndCR l := by
  intro l hl hcr
  obtain ⟨a, ha⟩ := List.getLast?_eq_some_iff.1 hcr
  obtain ⟨xs, ys, rfl⟩ := List.append_of_mem hl
  have hx : ∃ p, join ['\n'] (xs ++ l :: ys) = p ++ join ['\n'] (l :: ys) := by
    clear h hl
    induction xs with
    | nil => exact ⟨[], rfl⟩
    | cons x xs ih =>
      obtain ⟨p, hp⟩ := ih
      refine ⟨x ++ '\n' :: p, ?_⟩
      cases h : xs ++ l :: ys with
      | nil => simp at h
      | cons y zs =>
        rw [h] at hp
        rw [List.cons_append, h, join_cons_cons, hp]; simp
  obtain ⟨p, hp⟩ := hx
  cases ys with
  | nil =>
    have := h (p ++ a) [] (by rw [hp, ha]; simp [join])
    exact this.1 rfl
  | cons y ys =>
    have := h (p ++ a) ('\n' :: join ['\n'] (y :: ys)) (by rw [hp, ha, join_cons_cons]; simp)
    exact this.2 rfl

theorem lineOK_lastC {ls : List Str} {cr : Bool} (h : ∀ l ∈ ls, AllC (lastC cr) l ∧ nonBlank l = true)
    (hE : cr = true → CleanEnds (join ['\n'] ls)) : ∀ l ∈ ls, LineOK l := by
  intro l hl
  refine ⟨lastC_noLF (h l hl).1, ?_, (h l hl).2⟩
  cases cr with
  | false => exact (h l hl).1.noEndCR (by decide)
  | true => exact cleanEnds_join (hE rfl) l hl

section
variable [UniLib] {cr : Bool} {v : Nat} {vars : List Variable}

theorem step_head {e : Event D} {h : Str} (ht : HeadText cr v e h) (evs : List (Event D)) :
    step v vars evs h = .ok (evs ++ [(quoted e).setCommands []]) := by
  have hb := trim_ne (headText_nb ht)
  have hp := ht.parse
  obtain ⟨c, t, rfl, h1, h2, _⟩ := ht.first
  rw [step, if_neg hb, stripPrefix_cons h1]
  have : (c :: t).takeWhile Command.isIndent = [] := by simp [h2]
  simp only [this, List.length_nil, Nat.lt_irrefl, gt_iff_lt, if_false, hp]

theorem step_comment (s : Str) (evs : List (Event D)) :
    step v vars evs (c!"//" ++ s) = .ok (evs ++ [.comment s]) := by
  have hb : trim (c!"//" ++ s) ≠ [] := by
    rw [Ne, trim_eq_nil]; intro h; exact absurd (h '/' (by simp)) (by decide)
  rw [step, if_neg hb]
  simp [stripPrefix, List.isPrefixOf]

theorem step_cmd {vars' : List Variable} {k : Nat} {c : Command D} (ht : CmdText cr vars vars' k c) {e : Event D}
    {cs cs' : List (Command D)} {u : Unit} (hc : e.commands = some cs) (hp : tryPush cs c k = (cs', .ok u)) (evs : List (Event D)) :
    step v vars (evs ++ [e]) (cmdLine vars' k c) = .ok (evs ++ [e.setCommands cs']) := by
  have hb := trim_ne (cmdLine_nb vars' k c)
  have hs : stripPrefix c!"//" (cmdLine vars' k c) = none := by
    have hk := ht.pos
    obtain ⟨j, rfl⟩ : ∃ j, k = j + 1 := ⟨k - 1, by omega⟩
    exact stripPrefix_cons (c := ' ') (by decide)
  have hk := ht.pos
  rw [step, if_neg hb, hs]
  simp only [ht.indent, if_pos (show k > 0 from hk)]
  rw [stepCmd, getLast?_snoc]
  simp only [hc, ht.parse, hp, dropLast_snoc]

theorem loop_cmds {vars' : List Variable} {e : Event D} {ds : List (Command D)} (hc : e.commands = some ds) :
    ∀ (L : List (Nat × Command D)) (n : Nat) (evs : List (Event D)) (cs cs' : List (Command D)) (rest : List Str),
      (∀ x ∈ L, CmdText cr vars vars' x.1 x.2) → pushAll cs L = some cs' →
      loop v vars n (evs ++ [e.setCommands cs]) (Ev.listLines vars' L ++ rest) =
        loop v vars (n + L.length) (evs ++ [e.setCommands cs']) rest
  | [], n, evs, cs, cs', rest, _, hp => by
    simp only [pushAll, Option.some.injEq] at hp
    subst hp; rfl
  | (k, c) :: L, n, evs, cs, cs', rest, ht, hp => by
    rw [pushAll] at hp
    split at hp
    · rename_i ds' u hpush
      have hstep := step_cmd (v := v) (ht (k, c) (by simp)) (commands_set hc cs) hpush evs
      rw [set_setCommands] at hstep
      rw [show Ev.listLines vars' ((k, c) :: L) ++ rest = cmdLine vars' k c :: (Ev.listLines vars' L ++ rest) from rfl, loop, hstep]
      have ih := loop_cmds hc L (n + 1) evs ds' cs' rest (fun x hx => ht x (by simp [hx])) hp
      simp only [ih, List.length_cons]
      congr 1; omega
    · cases hp

/-- The lines of a printed event with first line `h`. -/
def evLines (vars : List Variable) (h : Str) (e : Event D) : List Str :=
  h :: Ev.listLines (cmdVars vars e) (listing 1 (cmdsOf e))

/-- All commands of the event are read back from their printed lines. -/
def CmdsRead (cr : Bool) (vars : List Variable) (e : Event D) : Prop :=
  ∀ x ∈ listing 1 (cmdsOf e), CmdText cr vars (cmdVars vars e) x.1 x.2

theorem loop_event {e : Event D} {h : Str} (ht : HeadText cr v e h) (hcs : CmdsRead cr vars e) (n : Nat) (evs : List (Event D))
    (rest : List Str) :
    loop v vars n evs (evLines vars h e ++ rest) = loop v vars (n + (evLines vars h e).length) (evs ++ [quoted e]) rest := by
  rw [evLines, List.cons_append, loop, step_head ht]
  simp only
  cases hc : (quoted e).commands with
  | none =>
    have : cmdsOf e = [] := by rw [← cmdsOf_quoted, cmdsOf, hc]; rfl
    rw [this, listing_nil, setCommands_none hc]
    rfl
  | some ds =>
    have := loop_cmds (v := v) (vars := vars) hc (listing 1 (cmdsOf e)) (n + 1) evs [] (cmdsOf e) rest hcs
      (pushAll_listing _ _)
    rw [this, ← cmdsOf_quoted, setCommands_self]
    congr 1
    simp [Ev.listLines]; omega

/-- The printed lines of an event that prints to something, and what they are read as. -/
structure EvText (cr : Bool) (v : Nat) (vars : List Variable) (e : Event D) (ls : List Str) : Prop where
  shw : Event.shw v vars e = some (some (join ['\n'] ls))
  ne : ls ≠ []
  chars : ∀ l ∈ ls, AllC (lastC cr) l ∧ nonBlank l = true
  read : ∀ n evs rest, loop v vars n evs (ls ++ rest) = loop v vars (n + ls.length) (evs ++ [quoted e]) rest

theorem event_text {e : Event D} (hw : HeadWritableC cr v e) (hcs : CmdsRead cr vars e) : ∃ ls, EvText cr v vars e ls := by
  by_cases hcom : ∃ s, e = .comment s
  · obtain ⟨s, rfl⟩ := hcom
    have hs : AllC (lastC cr) s := hw
    refine ⟨[c!"//" ++ s], rfl, by simp, ?_, ?_⟩
    · intro l hl
      simp only [List.mem_singleton] at hl
      subst hl
      refine ⟨AllC.append (wide_last (by decide)) hs, ?_⟩
      rw [nonBlank_iff, Ne, trim_eq_nil]; intro h; exact absurd (h '/' (by simp)) (by decide)
    · intro n evs rest
      rw [List.singleton_append, loop, step_comment]
      rfl
  · obtain ⟨h, ht, hshw⟩ := head_print hw (fun s hs => hcom ⟨s, hs⟩)
    refine ⟨evLines vars h e, ?_, by simp [evLines], ?_, loop_event ht hcs⟩
    · rw [hshw, withCmds, cmdsToStr, printCmds_eq]
      simp only [Option.map_some, evLines]
      congr 2
      cases hl : Ev.listLines (cmdVars vars e) (listing 1 (cmdsOf e)) with
      | nil => simp [join]
      | cons l ls =>
        rw [if_neg, join_cons_cons]
        · simp
        · have : l ≠ [] := by
            have hm : l ∈ Ev.listLines (cmdVars vars e) (listing 1 (cmdsOf e)) := by rw [hl]; simp
            obtain ⟨x, hx, rfl⟩ := List.mem_map.1 hm
            intro h0; have := cmdLine_nb (cmdVars vars e) x.1 x.2; rw [h0] at this; cases this
          cases l with
          | nil => exact absurd rfl this
          | cons c l => cases ls <;> simp [join]
    · intro l hl
      rcases List.mem_cons.1 hl with rfl | hl
      · exact ⟨ht.chars, headText_nb ht⟩
      · obtain ⟨x, hx, rfl⟩ := List.mem_map.1 hl
        exact ⟨(hcs x hx).chars, cmdLine_nb _ _ _⟩

omit [DecLib D] [UniLib] in
theorem join_join {ls : List Str} (hne : ls ≠ []) (more : List Str) :
    join ['\n'] (join ['\n'] ls :: more) = join ['\n'] (ls ++ more) := by
  induction ls with
  | nil => exact absurd rfl hne
  | cons a ls ih =>
    cases ls with
    | nil => rfl
    | cons b ls =>
      have := ih (by simp)
      cases more with
      | nil => simp [join]
      | cons m more =>
        rw [join_cons_cons] at this ⊢
        rw [join_cons_cons, List.cons_append, List.cons_append, join_cons_cons, ← List.cons_append, ← this]
        simp

/-- The printed lines of events, and what they are read as. -/
theorem events_lines {evs : List (Event D)} (h : ∀ e ∈ evs, HeadWritableC cr v e ∧ CmdsRead cr vars e) :
    ∃ ls, Events.shwVars v vars evs = some (join ['\n'] ls) ∧ (∀ l ∈ ls, AllC (lastC cr) l ∧ nonBlank l = true) ∧
      (ls = [] ↔ evs = []) ∧ ∀ n acc, loop v vars n acc ls = .ok (acc ++ evs.map quoted) := by
  have key : ∃ (ts : List Str) (ls : List Str), evs.mapM (Event.shw v vars) = some (ts.map some) ∧ join ['\n'] ts = join ['\n'] ls ∧
      (∀ l ∈ ls, AllC (lastC cr) l ∧ nonBlank l = true) ∧ (ls = [] ↔ evs = []) ∧ ∀ n acc, loop v vars n acc ls = .ok (acc ++ evs.map quoted) := by
    induction evs with
    | nil => exact ⟨[], [], rfl, rfl, (by simp), (by simp), fun n acc => by simp [loop]⟩
    | cons e evs ih =>
      obtain ⟨ts, ls, h1, h2, h3, h4, h5⟩ := ih fun x hx => h x (by simp [hx])
      obtain ⟨ls0, h6⟩ := event_text (h e (by simp)).1 (h e (by simp)).2
      refine ⟨join ['\n'] ls0 :: ts, ls0 ++ ls, ?_, ?_, ?_, ?_, ?_⟩
      · simp [List.mapM_cons, h6.shw, h1]
      · cases ts with
        | nil =>
          have : ls = [] := by
            rw [h4]
            cases evs with
            | nil => rfl
            | cons e' evs =>
              simp only [List.mapM_cons, List.map_nil] at h1
              cases ha : Event.shw v vars e' <;> rw [ha] at h1
              · cases h1
              · cases hb : evs.mapM (Event.shw v vars) <;> simp [hb] at h1
          rw [this, List.append_nil]
          rfl
        | cons t ts =>
          cases ls with
          | nil =>
            have : evs = [] := h4.1 rfl
            subst this
            simp at h1
          | cons l ls =>
            rw [join_cons_cons, h2, ← join_cons_cons, join_join h6.ne]
      · intro l hl
        rcases List.mem_append.1 hl with hl | hl
        · exact h6.chars l hl
        · exact h3 l hl
      · simp [h6.ne]
      · intro n acc
        rw [h6.read, h5]
        simp
  obtain ⟨ts, ls, h1, h2, h3, h4, h5⟩ := key
  refine ⟨ls, ?_, h3, h4, h5⟩
  rw [Events.shwVars, h1, ← h2]
  simp

/-- Printing events and reading the text gives the events back, with quoted paths. -/
theorem events_text {evs : List (Event D)} (h : ∀ e ∈ evs, HeadWritableC cr v e ∧ CmdsRead cr vars e)
    (hE : cr = true → ∀ s, Events.shwVars v vars evs = some s → CleanEnds s) :
    ∃ s, Events.shwVars v vars evs = some s ∧ Events.parseVars v vars s = .ok (evs.map quoted) ∧
      ∃ ls, s = join ['\n'] ls ∧ (∀ l ∈ ls, LineOK l) ∧ (ls = [] ↔ evs = []) := by
  obtain ⟨ls, hs, h3', h4, h5⟩ := events_lines h
  have h3 := lineOK_lastC h3' fun h => hE h _ hs
  refine ⟨join ['\n'] ls, hs, ?_, ls, rfl, h3, h4⟩
  rw [Events.parseVars, (lines_printed h3).1, h5]
  rfl

end

end Osu
