/-
The colour lines: exactly the lines of the grammar are accepted, and the others are refused with the error of the
specification.
-/
import Verif.Spec.FaultsColours
import Verif.Proof.Colours
import Verif.Proof.Faults

namespace Osu
open Parser

/-! ### Pieces -/

theorem all_iff_allC {f : Char → Bool} {s : Str} : s.all f = true ↔ AllC f s := by
  rw [List.all_eq_true]; rfl

theorem skipSp_eq (s : Str) : skipSp s = s.dropWhile isSpace := rfl

theorem blanks_allC {s : Str} : blanks s = true ↔ AllC isSpace s := all_iff_allC

theorem after_some {c : Char} {s t : Str} : after c s = some t ↔ s = c :: t := by
  cases s with
  | nil => simp [after]
  | cons d s =>
    unfold after
    split
    · rename_i h; simp [h]
    · rename_i h; simp [h]

theorem skipSp_split (s : Str) : ∃ b, blanks b = true ∧ s = b ++ skipSp s :=
  ⟨s.takeWhile isSpace, blanks_allC.2 (takeWhile_allC _ _), (List.takeWhile_append_dropWhile).symm⟩

theorem skipSp_app {b s : Str} (h : blanks b = true) (hs : HeadNot isSpace s) : skipSp (b ++ s) = s :=
  dropWhile_app (blanks_allC.1 h) hs

theorem skipSp_idem (s : Str) : skipSp (skipSp s) = skipSp s := by
  have := skipSp_app (b := []) (s := skipSp s) rfl (dropWhile_headNot _ _)
  exact this

theorem lead_split (s : Str) : ∃ b0 b1, blanks b0 = true ∧ blanks b1 = true ∧ (leadDigits s).all isDig = true ∧
    s = b0 ++ leadDigits s ++ b1 ++ pastDigits s := by
  obtain ⟨b0, h0, e0⟩ := skipSp_split s
  obtain ⟨b1, h1, e1⟩ := skipSp_split ((skipSp s).dropWhile isDig)
  refine ⟨b0, b1, h0, h1, all_iff_allC.2 (takeWhile_allC _ _), ?_⟩
  have : skipSp s = leadDigits s ++ ((skipSp s).dropWhile isDig) := (List.takeWhile_append_dropWhile).symm
  unfold pastDigits
  rw [List.append_assoc, List.append_assoc, ← e1, ← this, ← e0]

theorem lead_app {b0 r b1 : Str} {c : Char} {t : Str} (h0 : blanks b0 = true) (h1 : blanks b1 = true)
    (hr : r.all isDig = true) (hne : r ≠ []) (hc : isSpace c = false) (hd : isDig c = false) :
    leadDigits (b0 ++ r ++ b1 ++ c :: t) = r ∧ pastDigits (b0 ++ r ++ b1 ++ c :: t) = c :: t := by
  have hr := all_iff_allC.1 hr
  have e1 : skipSp (b0 ++ r ++ b1 ++ c :: t) = r ++ (b1 ++ c :: t) := by
    rw [List.append_assoc, List.append_assoc]
    exact skipSp_app h0 (headNot_space_dig hr hne)
  have hh : HeadNot isDig (b1 ++ c :: t) := by
    cases b1 with
    | nil => exact .cons hd
    | cons d b =>
      have hsp : isSpace d = true := (blanks_allC.1 h1) d (.head _)
      refine .cons ?_
      cases hx : isDig d with
      | false => rfl
      | true => rw [dig_not_space hx] at hsp; cases hsp
  unfold leadDigits pastDigits
  rw [e1]
  refine ⟨takeWhile_app hr hh, ?_⟩
  rw [dropWhile_app hr hh]
  exact skipSp_app h1 (.cons hc)

/-! ### The numbers -/

/-- The outcome for the numbers. -/
def rgbOut (s : Str) : Res RgbErr Rgb :=
  match parseU8 (leadDigits s) with
  | .ok r =>
    match after ',' (pastDigits s) with
    | some t =>
      match parseU8 (leadDigits t) with
      | .ok g =>
        match after ',' (pastDigits t) with
        | some u =>
          match parseU8 (skipSp u) with
          | .ok b => .ok ⟨r, g, b⟩
          | _ => .err .invalidBlue
        | none => .err .missingBlue
      | _ => .err .invalidGreen
    | none => .err .missingGreen
  | _ => .err .invalidRed

theorem out_byte (s : Str) : (Rgb.byte s).out = Out.ofRes (s.dropWhile isDig) (parseU8 (s.takeWhile isDig)) := by
  unfold Rgb.byte
  rw [out_mapRes]
  unfold digit1
  split
  · rename_i h; rw [h]; rfl
  · rfl

theorem out_comma (s : Str) : (comma s : PRes RgbErr Str).out =
    match after ',' s with | some t => .ok t [','] | none => .soft none := by
  unfold comma
  rw [out_tag]
  cases s with
  | nil => rfl
  | cons d s =>
    by_cases h : d = ','
    · subst h; rfl
    · simp only [after, if_neg h]
      have : ([','] : Str).isPrefixOf (d :: s) = false := by simp [List.isPrefixOf, Ne.symm h]
      rw [this]; rfl

theorem out_space0 {γ : Type} (s : Str) : (space0 s : PRes γ Str).out = .ok (skipSp s) (s.takeWhile isSpace) := rfl

theorem rgb_parse (s : Str) : Rgb.parse s = rgbOut s := by
  unfold Rgb.parse Rgb.parser rgbOut
  rw [toRes_out]
  rw [out_bind, out_preceded, out_space0, Out.seq_ok, out_context, out_byte]
  rw [show (skipSp s).takeWhile isDig = leadDigits s from rfl]
  cases h1 : parseU8 (leadDigits s) with
  | panic => exact absurd h1 (parseU8_no_panic _)
  | err e => rfl
  | ok r =>
    rw [Out.ofRes_ok, Out.label_ok, Out.seq_ok]
    rw [out_bind, out_preceded, out_bind, out_space0, Out.seq_ok, out_bind, out_context, out_comma]
    rw [show skipSp ((skipSp s).dropWhile isDig) = pastDigits s from rfl]
    cases h2 : after ',' (pastDigits s) with
    | none => rfl
    | some t =>
      simp only [Out.label_ok, Out.seq_ok, out_space0]
      rw [out_context, out_byte]
      rw [show (skipSp t).takeWhile isDig = leadDigits t from rfl]
      cases h3 : parseU8 (leadDigits t) with
      | panic => exact absurd h3 (parseU8_no_panic _)
      | err e => rfl
      | ok g =>
        rw [Out.ofRes_ok, Out.label_ok, Out.seq_ok]
        rw [out_bind, out_preceded, out_bind, out_space0, Out.seq_ok, out_bind, out_context, out_comma]
        rw [show skipSp ((skipSp t).dropWhile isDig) = pastDigits t from rfl]
        cases h4 : after ',' (pastDigits t) with
        | none => rfl
        | some u =>
          simp only [Out.label_ok, Out.seq_ok, out_space0]
          rw [out_context, out_restType]
          cases h5 : parseU8 (skipSp u) with
          | panic => exact absurd h5 (parseU8_no_panic _)
          | err e => rfl
          | ok b => rfl

theorem parseU8_head {b : Str} {n : UInt8} (h : parseU8 b = .ok n) : HeadNot isSpace b := by
  cases b with
  | nil => exact .nil
  | cons c b =>
    refine .cons ?_
    cases hs : isSpace c with
    | false => rfl
    | true =>
      exfalso
      have hc : c = ' ' ∨ c = '\t' := by simpa [isSpace] using hs
      rcases hc with rfl | rfl
      · cases b <;> simp [parseU8, parseUnsigned, parseDigits, digitVal, Res.bind] at h
      · cases b <;> simp [parseU8, parseUnsigned, parseDigits, digitVal, Res.bind] at h

theorem parseU8_ne_nil {b : Str} {n : UInt8} (h : parseU8 b = .ok n) : b ≠ [] := by
  rintro rfl; cases h

theorem rgb_ok_iff {s : Str} {c : Rgb} : Rgb.parse s = .ok c ↔ RgbReads s c := by
  rw [rgb_parse]
  constructor
  · intro h
    unfold rgbOut at h
    split at h
    · rename_i r hr
      split at h
      · rename_i t ht
        split at h
        · rename_i g hg
          split at h
          · rename_i u hu
            split at h
            · rename_i b hb
              cases h
              obtain ⟨b0, b1, h0, h1, hrd, es⟩ := lead_split s
              obtain ⟨b2, b3, h2, h3, hgd, et⟩ := lead_split t
              obtain ⟨b4, h4, eu⟩ := skipSp_split u
              rw [after_some.1 ht] at es
              rw [after_some.1 hu] at et
              rw [es, et, eu]
              exact .mk (c := ⟨r, g, b⟩) h0 h1 h2 h3 h4 hrd hgd hr hg hb
            · cases h
          · cases h
        · cases h
      · cases h
    · cases h
  · rintro ⟨h0, h1, h2, h3, h4, hr, hg, er, eg, eb⟩
    unfold rgbOut
    obtain ⟨e1, e2⟩ := lead_app (c := ',') (t := _) h0 h1 hr (parseU8_ne_nil er) (by decide) (by decide)
    rw [e1, e2, er]
    obtain ⟨e3, e4⟩ := lead_app (c := ',') (t := _) h2 h3 hg (parseU8_ne_nil eg) (by decide) (by decide)
    simp only [after, if_true]
    rw [e3, e4, eg]
    simp only [after, if_true]
    rw [skipSp_app h4 (parseU8_head eb), eb]

theorem rgb_err_iff {s : Str} {e : RgbErr} : Rgb.parse s = .err e ↔ rgbFault s = some e := by
  rw [rgb_parse]
  unfold rgbOut rgbFault
  cases h1 : parseU8 (leadDigits s) with
  | panic => exact absurd h1 (parseU8_no_panic _)
  | err e => simp [readable_err h1]
  | ok r =>
    simp only [readable_ok h1, Bool.true_eq_false, if_false]
    cases h2 : after ',' (pastDigits s) with
    | none => simp
    | some t =>
      simp only []
      cases h3 : parseU8 (leadDigits t) with
      | panic => exact absurd h3 (parseU8_no_panic _)
      | err e => simp [readable_err h3]
      | ok g =>
        simp only [readable_ok h3, Bool.true_eq_false, if_false]
        cases h4 : after ',' (pastDigits t) with
        | none => simp
        | some u =>
          simp only []
          cases h5 : parseU8 (skipSp u) with
          | panic => exact absurd h5 (parseU8_no_panic _)
          | err e => simp [readable_err h5]
          | ok b => simp [readable_ok h5]

theorem rgbFault_skip (s : Str) : rgbFault (skipSp s) = rgbFault s := by
  unfold rgbFault leadDigits pastDigits; rw [skipSp_idem]

theorem rgbReads_skip {s : Str} {c : Rgb} : RgbReads (skipSp s) c ↔ RgbReads s c := by
  rw [← rgb_ok_iff, ← rgb_ok_iff, rgb_parse, rgb_parse]
  unfold rgbOut leadDigits pastDigits; rw [skipSp_idem]


/-! ### The line -/

namespace Colour

/-- A parser that fails hard or not at all. -/
def Hard {α : Type} (p : Parser ColCtx α) : Prop := ∀ s e, p s ≠ .error e

theorem Hard.cut {α : Type} (p : Parser ColCtx α) : Hard (cut p) := by
  intro s e h
  unfold Parser.cut at h
  cases hp : p s <;> rw [hp] at h <;> cases h

theorem Hard.context {α : Type} {p : Parser ColCtx α} (hp : Hard p) (c : ColCtx) : Hard (context c p) := by
  intro s e h
  unfold Parser.context at h
  cases hx : p s with
  | error e => exact hp s e hx
  | _ => rw [hx] at h; cases h

theorem Hard.bind {α β : Type} {p : Parser ColCtx α} {f : α → Parser ColCtx β} (hp : Hard p) (hf : ∀ a, Hard (f a)) :
    Hard (p.bind f) := by
  intro s e h
  unfold Parser.bind at h
  cases hx : p s with
  | error e => exact hp s e hx
  | ok r a => rw [hx] at h; exact hf a r e h
  | _ => rw [hx] at h; cases h

theorem Hard.map {α β : Type} {p : Parser ColCtx α} (hp : Hard p) (f : α → β) : Hard (p.map f) := by
  intro s e h
  unfold Parser.map at h
  cases hx : p s with
  | error e => exact hp s e hx
  | _ => rw [hx] at h; cases h

theorem Hard.ret {α : Type} (a : α) : Hard (ret a : Parser ColCtx α) := by
  intro s e h; cases h

/-- The conversion at the end of `parse`. -/
def finish : PRes ColCtx Colour → Res ColourErr Colour
  | .ok _ c => .ok c
  | .error e | .failure e => toErr e
  | .panic => .panic

theorem parse_eq (s : Str) : parse s = finish (parser (trim s)) := by
  unfold parse finish; cases parser (trim s) <;> rfl

/-- The outcome after the name. -/
def tailOut (f : Rgb → Colour) (w : Str) : Res ColourErr Colour :=
  match after ':' (skipSp w) with
  | none => .err .invalidColonSeparator
  | some t =>
    match Rgb.parse t with
    | .ok c => .ok (f c)
    | .err e => .err (.rgb e)
    | .panic => .panic

theorem parse_skip (t : Str) : Rgb.parse (skipSp t) = Rgb.parse t := by
  rw [rgb_parse, rgb_parse]
  unfold rgbOut leadDigits pastDigits; rw [skipSp_idem]

theorem separator_none {w : Str} (h : after ':' (skipSp w) = none) :
    separator w = .error [(skipSp w, .nom .tag)] := by
  unfold separator Parser.bind
  rw [show (space0 w : PRes ColCtx Str) = .ok (skipSp w) (w.takeWhile isSpace) from rfl]
  simp only [tag]
  have : ([':'] : Str).isPrefixOf (skipSp w) = false := by
    cases hw : skipSp w with
    | nil => rfl
    | cons d r =>
      rw [hw] at h
      have : d ≠ ':' := by rintro rfl; simp [after] at h
      simp [List.isPrefixOf, Ne.symm this]
  rw [this]; rfl

theorem separator_some {w t : Str} (h : after ':' (skipSp w) = some t) : separator w = .ok (skipSp t) () := by
  unfold separator Parser.bind
  rw [show (space0 w : PRes ColCtx Str) = .ok (skipSp w) (w.takeWhile isSpace) from rfl]
  rw [after_some.1 h]; rfl

theorem rgbP_eq_ok {t : Str} {c : Rgb} (h : Rgb.parse t = .ok c) : rgbP t = .ok [] c := by
  unfold rgbP context mapRes rest; simp only [h]

theorem rgbP_err {t : Str} {e : RgbErr} (h : Rgb.parse t = .err e) :
    rgbP t = .error [(t, .nom .mapRes), (t, .ctx .rgbParseError)] := by
  unfold rgbP context mapRes rest; simp only [h]; rfl

theorem findRgb_rgb {t : Str} {e : RgbErr} (h : Rgb.parse t = .err e) {x : VErr ColCtx} :
    toErr ((t, .nom .mapRes) :: (t, .ctx .rgbParseError) :: x) = .err (.rgb e) := by
  simp [toErr, findRgb, h]

theorem combo_skip {s : Str} (h : (c!"Combo").isPrefixOf s = false) : comboP s = .error [(s, .nom .tag)] := by
  unfold comboP preceded Parser.bind tag; rw [h]; rfl

theorem track_skip {s : Str} (h : (c!"SliderTrackOverride").isPrefixOf s = false) :
    trackP s = .error [(s, .nom .tag)] := by
  unfold trackP preceded Parser.map Parser.bind tag; rw [h]; rfl

theorem combo_hard {s : Str} (h : (c!"Combo").isPrefixOf s = true) {e : VErr ColCtx} : comboP s ≠ .error e := by
  have ht : (tag c!"Combo" s : PRes ColCtx Str) = .ok (s.drop 5) c!"Combo" := by unfold tag; rw [h]; rfl
  have hb : comboP s = ((context (ColCtx.err .invalidComboCount) (cut (mapRes digit1 parseI32))).bind fun n =>
      (cut (preceded (context (.err .invalidColonSeparator) separator) rgbP)).bind fun c => ret (.combo n c)) (s.drop 5) := by
    unfold comboP preceded
    simp only [Parser.bind, ht]
  rw [hb]
  exact ((Hard.cut _).context _).bind (fun n => (Hard.cut _).bind fun c => .ret _) _ _

theorem combo_take {s : Str} (h : (c!"Combo").isPrefixOf s = true) :
    finish (comboP s) = match parseI32 ((s.drop 5).takeWhile isDig) with
      | .ok n => tailOut (.combo n) ((s.drop 5).dropWhile isDig)
      | _ => .err .invalidComboCount := by
  have ht : (tag c!"Combo" s : PRes ColCtx Str) = .ok (s.drop 5) c!"Combo" := by unfold tag; rw [h]; rfl
  unfold comboP preceded
  have hb : ∀ (f : Str → Parser ColCtx Int32) (g : Int32 → Parser ColCtx Colour),
      ((((tag c!"Combo").bind f).bind g) s) = ((f c!"Combo").bind g) (s.drop 5) := by
    intro f g; unfold Parser.bind; rw [ht]
  rw [hb]
  generalize s.drop 5 = u
  cases hd : u.takeWhile isDig with
  | nil =>
    have : (digit1 u : PRes ColCtx Str) = .error [(u, .nom .digit)] := by unfold digit1; rw [hd]
    unfold Parser.bind context cut mapRes
    simp only [this]; rfl
  | cons a b =>
    have hd1 : (digit1 u : PRes ColCtx Str) = .ok (u.dropWhile isDig) (a :: b) := by unfold digit1; rw [hd]
    cases hp : parseI32 (a :: b) with
    | panic => exact absurd hp (parseI32_no_panic _)
    | err e =>
      unfold Parser.bind context cut mapRes
      simp only [hd1, hp]; rfl
    | ok n =>
      have : (context (ColCtx.err .invalidComboCount) (cut (mapRes digit1 parseI32))) u = .ok (u.dropWhile isDig) n := by
        unfold context cut mapRes
        simp only [hd1, hp]
      generalize u.dropWhile isDig = w at *
      unfold Parser.bind at *
      simp only [this]
      unfold cut context tailOut
      cases hs : after ':' (skipSp w) with
      | none => simp only [separator_none hs]; rfl
      | some t =>
        simp only [separator_some hs]
        cases hr : Rgb.parse (skipSp t) with
        | panic => exact absurd hr (Rgb.parse_no_panic _)
        | ok c => simp only [(rgbP_eq_ok hr : rgbP (skipSp t) = .ok [] c), (parse_skip t).symm.trans hr]; rfl
        | err e =>
          simp only [rgbP_err hr, (parse_skip t).symm.trans hr]
          exact findRgb_rgb hr (x := [])

/-- The part shared by the two slider colours. -/
theorem slider_tail {w : Str} (f : Rgb → Colour) :
    finish (((preceded (context (ColCtx.err .invalidColonSeparator) (cut separator)) (cut rgbP)).map f) w) = tailOut f w := by
  unfold tailOut preceded Parser.map Parser.bind cut context
  cases hs : after ':' (skipSp w) with
  | none => simp only [separator_none hs]; rfl
  | some t =>
    simp only [separator_some hs]
    cases hr : Rgb.parse (skipSp t) with
    | panic => exact absurd hr (Rgb.parse_no_panic _)
    | ok c => simp only [(rgbP_eq_ok hr : rgbP (skipSp t) = .ok [] c), (parse_skip t).symm.trans hr]; rfl
    | err e =>
      simp only [rgbP_err hr, (parse_skip t).symm.trans hr]
      exact findRgb_rgb hr (x := [])

theorem slider_hard (w : Str) (f : Rgb → Colour) {e : VErr ColCtx} :
    (((preceded (context (ColCtx.err .invalidColonSeparator) (cut separator)) (cut rgbP)).map f) w) ≠ .error e :=
  ((((Hard.cut _).context _).bind fun _ => Hard.cut _).map f) _ _

theorem track_tail {s : Str} (h : (c!"SliderTrackOverride").isPrefixOf s = true) :
    trackP s = (((preceded (context (ColCtx.err .invalidColonSeparator) (cut separator)) (cut rgbP)).map
      Colour.sliderTrackOverride) (s.drop 19)) := by
  have ht : (tag c!"SliderTrackOverride" s : PRes ColCtx Str) = .ok (s.drop 19) c!"SliderTrackOverride" := by
    unfold tag; rw [h]; rfl
  unfold trackP preceded Parser.map Parser.bind
  simp only [ht]

/-- The name with a big or small `b`. -/
def borderName : Parser ColCtx Str :=
  (tag c!"Slider").bind fun _ => (alt [char 'B', char 'b']).bind fun _ => tag c!"order"

theorem borderName_ok {s : Str} (h : (c!"SliderBorder").isPrefixOf s = true ∨ (c!"Sliderborder").isPrefixOf s = true) :
    borderName s = .ok (s.drop 12) c!"order" := by
  rcases h with h | h <;>
  · obtain ⟨r, rfl⟩ := List.isPrefixOf_iff_prefix.1 h
    rfl

theorem borderName_err {s : Str} (h1 : (c!"SliderBorder").isPrefixOf s = false)
    (h2 : (c!"Sliderborder").isPrefixOf s = false) : ∃ e, borderName s = .error e := by
  unfold borderName Parser.bind
  by_cases h : (c!"Slider").isPrefixOf s = true
  · obtain ⟨r, rfl⟩ := List.isPrefixOf_iff_prefix.1 h
    rw [show (tag c!"Slider" (c!"Slider" ++ r) : PRes ColCtx Str) = .ok r c!"Slider" from rfl]
    cases r with
    | nil => exact ⟨_, rfl⟩
    | cons d r =>
      by_cases hd : d = 'B' ∨ d = 'b'
      · have : (alt [char 'B', char 'b'] (d :: r) : PRes ColCtx Char) = .ok r d := by
          rcases hd with rfl | rfl <;> rfl
        simp only [this]
        have : (c!"order").isPrefixOf r = false := by
          rcases hd with rfl | rfl
          · exact h1
          · exact h2
        unfold tag; rw [this]; exact ⟨_, rfl⟩
      · have hB : d ≠ 'B' := fun h => hd (.inl h)
        have hb : d ≠ 'b' := fun h => hd (.inr h)
        simp only [alt, altAux, char, if_neg hB, if_neg hb]
        exact ⟨_, rfl⟩
  · have h : (c!"Slider").isPrefixOf s = false := Bool.eq_false_iff.2 h
    unfold tag; rw [h]; exact ⟨_, rfl⟩

theorem border_tail {s : Str} (h : (c!"SliderBorder").isPrefixOf s = true ∨ (c!"Sliderborder").isPrefixOf s = true) :
    borderP s = (((preceded (context (ColCtx.err .invalidColonSeparator) (cut separator)) (cut rgbP)).map
      Colour.sliderBorder) (s.drop 12)) := by
  show (((preceded (borderName.bind fun _ => context (.err .invalidColonSeparator) (cut separator))
    (cut rgbP)).map Colour.sliderBorder) s) = _
  unfold preceded Parser.map Parser.bind
  simp only [borderName_ok h]

theorem border_skip {s : Str} (h1 : (c!"SliderBorder").isPrefixOf s = false)
    (h2 : (c!"Sliderborder").isPrefixOf s = false) : ∃ e, borderP s = .error e := by
  obtain ⟨e, he⟩ := borderName_err h1 h2
  refine ⟨e, ?_⟩
  show (((preceded (borderName.bind fun _ => context (.err .invalidColonSeparator) (cut separator))
    (cut rgbP)).map Colour.sliderBorder) s) = _
  unfold preceded Parser.map Parser.bind
  simp only [he]

/-- The outcome of a line without blanks around it. -/
def lineOut (s : Str) : Res ColourErr Colour :=
  if (c!"Combo").isPrefixOf s then
    match parseI32 ((s.drop 5).takeWhile isDig) with
    | .ok n => tailOut (.combo n) ((s.drop 5).dropWhile isDig)
    | _ => .err .invalidComboCount
  else if (c!"SliderTrackOverride").isPrefixOf s then tailOut .sliderTrackOverride (s.drop 19)
  else if (c!"SliderBorder").isPrefixOf s || (c!"Sliderborder").isPrefixOf s then tailOut .sliderBorder (s.drop 12)
  else .err .unknownColourType

theorem alt_stop {ps : List (Parser ColCtx Colour)} {p : Parser ColCtx Colour} {e0 : VErr ColCtx} {s : Str}
    (h : ∀ e, p s ≠ .error e) : altAux e0 s (p :: ps) = p s := by
  unfold altAux
  split
  · rename_i e he; exact absurd he (h e)
  · rfl

theorem alt_go {ps : List (Parser ColCtx Colour)} {p : Parser ColCtx Colour} {e0 e : VErr ColCtx} {s : Str}
    (h : p s = .error e) : altAux e0 s (p :: ps) = altAux e s ps := by
  conv => lhs; unfold altAux
  rw [h]

theorem parser_out (s : Str) : finish (parser s) = lineOut s := by
  unfold parser alt lineOut
  by_cases h1 : (c!"Combo").isPrefixOf s = true
  · rw [alt_stop (fun e => combo_hard h1), if_pos h1, combo_take h1]
  have h1' := Bool.eq_false_iff.2 h1
  rw [alt_go (combo_skip h1'), if_neg h1]
  by_cases h2 : (c!"SliderTrackOverride").isPrefixOf s = true
  · rw [alt_stop (fun e => by rw [track_tail h2]; exact slider_hard _ _), if_pos h2, track_tail h2, slider_tail]
  have h2' := Bool.eq_false_iff.2 h2
  rw [alt_go (track_skip h2'), if_neg h2]
  by_cases h3 : ((c!"SliderBorder").isPrefixOf s || (c!"Sliderborder").isPrefixOf s) = true
  · have h3' := Bool.or_eq_true_iff.1 h3
    rw [alt_stop (fun e => by rw [border_tail h3']; exact slider_hard _ _), if_pos h3, border_tail h3', slider_tail]
  have h3' := Bool.or_eq_false_iff.1 (Bool.eq_false_iff.2 h3)
  obtain ⟨e, he⟩ := border_skip h3'.1 h3'.2
  rw [alt_go he, if_neg h3]
  rfl

theorem parse_out (s : Str) : parse s = lineOut (trim s) := by rw [parse_eq, parser_out]

theorem tailOut_err {f : Rgb → Colour} {w : Str} {e : ColourErr} : tailOut f w = .err e ↔ colonFault w = some e := by
  unfold tailOut colonFault
  cases after ':' (skipSp w) with
  | none => simp
  | some t =>
    simp only []
    cases hr : Rgb.parse t with
    | panic => exact absurd hr (Rgb.parse_no_panic _)
    | ok c =>
      have : rgbFault t = none := by
        cases hf : rgbFault t with
        | none => rfl
        | some e => rw [rgb_err_iff.2 hf] at hr; cases hr
      simp [this]
    | err x => simp [rgb_err_iff.1 hr]

theorem err_iff {s : Str} {e : ColourErr} : parse s = .err e ↔ colourFault (trim s) = some e := by
  rw [parse_out]
  unfold lineOut colourFault
  split
  · cases hp : parseI32 (((trim s).drop 5).takeWhile isDig) with
    | panic => exact absurd hp (parseI32_no_panic _)
    | err x => simp [readable_err hp]
    | ok n => simp only [readable_ok hp, if_true]; exact tailOut_err
  · split
    · exact tailOut_err
    · split
      · exact tailOut_err
      · simp

theorem tailOut_ok {f : Rgb → Colour} {w : Str} {x : Colour} :
    tailOut f w = .ok x ↔ ∃ b t c, w = b ++ ':' :: t ∧ blanks b = true ∧ RgbReads t c ∧ x = f c := by
  unfold tailOut
  constructor
  · intro h
    cases ha : after ':' (skipSp w) with
    | none => rw [ha] at h; cases h
    | some t =>
      rw [ha] at h
      simp only [] at h
      cases hr : Rgb.parse t with
      | panic => rw [hr] at h; cases h
      | err e => rw [hr] at h; cases h
      | ok c =>
        rw [hr] at h
        obtain ⟨b, hb, e⟩ := skipSp_split w
        exact ⟨b, t, c, by rw [← after_some.1 ha, ← e], hb, rgb_ok_iff.1 hr, (Res.ok.inj h).symm⟩
  · rintro ⟨b, t, c, rfl, hb, ht, rfl⟩
    rw [skipSp_app hb (.cons (by decide))]
    simp only [after, if_true, rgb_ok_iff.2 ht]

theorem ok_iff {s : Str} {x : Colour} : parse s = .ok x ↔ ColourReads (trim s) x := by
  rw [parse_out]
  generalize trim s = u
  constructor
  · intro h
    unfold lineOut at h
    split at h
    · rename_i hp
      obtain ⟨r, rfl⟩ := List.isPrefixOf_iff_prefix.1 hp
      rw [show List.drop 5 (c!"Combo" ++ r) = r from rfl] at h
      split at h
      · rename_i n hn
        obtain ⟨b, t, c, e, hb, ht, rfl⟩ := tailOut_ok.1 h
        have := ColourReads.mk (.combo (all_iff_allC.2 (takeWhile_allC isDig r)) hn) hb ht
        rw [List.append_assoc, List.append_assoc, ← e, List.takeWhile_append_dropWhile] at this
        exact this
      · cases h
    · split at h
      · rename_i hp
        obtain ⟨r, rfl⟩ := List.isPrefixOf_iff_prefix.1 hp
        obtain ⟨b, t, c, e, hb, ht, rfl⟩ := tailOut_ok.1 h
        have := ColourReads.mk .track hb ht
        rw [List.append_assoc, ← e] at this
        exact this
      · split at h
        · rename_i hp
          obtain ⟨b, t, c, e, hb, ht, rfl⟩ := tailOut_ok.1 h
          rcases Bool.or_eq_true_iff.1 hp with hp | hp
          · obtain ⟨r, rfl⟩ := List.isPrefixOf_iff_prefix.1 hp
            have := ColourReads.mk .border hb ht
            rw [List.append_assoc, ← e] at this
            exact this
          · obtain ⟨r, rfl⟩ := List.isPrefixOf_iff_prefix.1 hp
            have := ColourReads.mk .borderLower hb ht
            rw [List.append_assoc, ← e] at this
            exact this
        · cases h
  · rintro ⟨hn, hb, ht⟩
    rename_i name b t f c
    have ho := fun w (e : w = b ++ ':' :: t) => (tailOut_ok (f := f) (w := w) (x := f c)).2 ⟨b, t, c, e, hb, ht, rfl⟩
    cases hn with
    | combo hd e =>
      rename_i n k
      have hd := all_iff_allC.1 hd
      have hh : HeadNot isDig (b ++ ':' :: t) := by
        cases b with
        | nil => exact .cons (by decide)
        | cons d b =>
          have hsp : isSpace d = true := (blanks_allC.1 hb) d (.head _)
          refine .cons ?_
          cases hx : isDig d with
          | false => rfl
          | true => rw [dig_not_space hx] at hsp; cases hsp
      unfold lineOut
      rw [List.append_assoc, List.append_assoc]
      rw [if_pos (List.isPrefixOf_iff_prefix.2 ⟨_, rfl⟩)]
      rw [show List.drop 5 (c!"Combo" ++ (n ++ (b ++ ':' :: t))) = n ++ (b ++ ':' :: t) from rfl,
        takeWhile_app hd hh, dropWhile_app hd hh, e]
      exact ho _ rfl
    | track => exact ho _ rfl
    | border => exact ho _ rfl
    | borderLower => exact ho _ rfl

end Colour

end Osu
