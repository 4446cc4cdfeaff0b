/-
Lemmas on colours: printing and reading back, what a successful parse means, panic freedom.
-/
import Verif.Model.Colours
import Verif.Proof.Ctx
import Verif.Proof.Lines

namespace Osu
open Parser

theorem digit1_eq_ok {γ : Type} {s r a : Str} :
    (digit1 : Parser γ Str) s = .ok r a ↔ s = a ++ r ∧ a ≠ [] ∧ AllC isDig a ∧ HeadNot isDig r := by
  constructor
  · intro h
    unfold digit1 at h
    split at h
    · cases h
    · rename_i t ht
      cases h
      exact ⟨(List.takeWhile_append_dropWhile).symm, ht, takeWhile_allC _ _, dropWhile_headNot _ _⟩
  · rintro ⟨rfl, h1, h2, h3⟩
    unfold digit1
    rw [takeWhile_app h2 h3, dropWhile_app h2 h3]
    cases a with
    | nil => exact absurd rfl h1
    | cons c a => rfl

theorem space0_eq_ok {γ : Type} {s r a : Str} :
    (space0 : Parser γ Str) s = .ok r a ↔ s = a ++ r ∧ AllC isSpace a ∧ HeadNot isSpace r := takeWhile_eq_ok

theorem u8ToStr_dig (n : UInt8) : AllC isDig (u8ToStr n) := natToStr_digits _

theorem dig_not_space {c : Char} (h : isDig c = true) : isSpace c = false := by
  unfold isSpace
  have h1 := digitVal_ne h (d := ' ') (by decide)
  have h2 := digitVal_ne h (d := '\t') (by decide)
  simp [h1, h2]

theorem headNot_space_dig {s t : Str} (h : AllC isDig s) (hne : s ≠ []) : HeadNot isSpace (s ++ t) := by
  cases s with
  | nil => exact absurd rfl hne
  | cons c s => exact .cons (dig_not_space h.of_cons.1)

theorem allC_isDig_u8_isNum {s : Str} (h : AllC isDig s) : AllC isNumChar s :=
  h.mono fun c hc => by
    have : (digitVal c).isSome = true := hc
    simp [isNumChar, this]

namespace Rgb

theorem byte_ok (n : UInt8) {t : Str} (ht : HeadNot isDig t) : byte (u8ToStr n ++ t) = .ok t n :=
  mapRes_eq_ok.2 ⟨_, digit1_eq_ok.2 ⟨rfl, u8ToStr_ne_nil n, u8ToStr_dig n, ht⟩, parseU8_u8ToStr n⟩

theorem parser_shw (c : Rgb) : parser c.shw = .ok [] c := by
  have hsp : ∀ {s : Str}, HeadNot isSpace s → (space0 : Parser RgbErr Str) s = .ok s [] :=
    fun h => space0_eq_ok.2 ⟨rfl, .nil, h⟩
  have hc : ∀ s, HeadNot isSpace (',' :: s) := fun s => .cons (by decide)
  have hd : ∀ s, HeadNot isDig (',' :: s) := fun s => .cons (by decide)
  unfold parser shw
  simp only [List.append_assoc, List.singleton_append, bind_eq_ok, preceded_eq_ok, context_eq_ok, ret_eq_ok]
  refine ⟨_, _, ⟨_, _, hsp (headNot_space_dig (u8ToStr_dig _) (u8ToStr_ne_nil _)), byte_ok _ (hd _)⟩, _, _,
    ⟨_, _, ⟨_, _, hsp (hc _), _, _, comma_eq_ok.2 ⟨rfl, rfl⟩,
      hsp (headNot_space_dig (u8ToStr_dig _) (u8ToStr_ne_nil _))⟩, byte_ok _ (hd _)⟩, _, _,
    ⟨u8ToStr c.blue, [], ⟨_, _, hsp (hc _), _, _, comma_eq_ok.2 ⟨rfl, rfl⟩, ?_⟩, ?_⟩, rfl, rfl⟩
  · have := headNot_space_dig (t := []) (u8ToStr_dig c.blue) (u8ToStr_ne_nil _)
    rw [List.append_nil] at this
    exact hsp this
  · exact restType_eq_ok.2 ⟨rfl, parseU8_u8ToStr _⟩

theorem parse_shw (c : Rgb) : parse c.shw = .ok c := by
  unfold parse; rw [parser_shw]; rfl

theorem byte_safe : SafeF (fun _ => False) byte := SafeF.digit1.mapRes parseU8_no_panic

theorem parser_good : Good (fun _ => False) parser := by
  have U := @Upward.false
  unfold parser
  refine (Good.preceded U .space0 (byte_safe.toSafe.context _)).bind U fun r => ?_
  refine (Good.preceded U (Good.space0.bind U fun _ => (SafeF.comma.toSafe.context _).bind U fun _ => .space0)
    (byte_safe.toSafe.context _)).bind U fun g => ?_
  refine (Good.preceded U (Good.space0.bind U fun _ => (SafeF.comma.toSafe.context _).bind U fun _ => .space0)
    ((SafeF.restType parseU8_no_panic).toSafe.context _)).bind U fun b => ?_
  exact .ret _

theorem parse_no_panic (s : Str) : parse s ≠ .panic := fun h => parser_good.toRes h

/-- Characters of a printed colour. -/
theorem shw_chars (c : Rgb) : ∀ d ∈ c.shw, isDig d = true ∨ d = ',' := by
  intro d hd
  unfold shw at hd
  simp only [List.append_assoc, List.mem_append, List.mem_singleton] at hd
  rcases hd with h | h | h | h | h
  · exact .inl (u8ToStr_dig _ d h)
  · exact .inr h
  · exact .inl (u8ToStr_dig _ d h)
  · exact .inr h
  · exact .inl (u8ToStr_dig _ d h)

theorem shw_ends (c : Rgb) : ∃ a d, c.shw = a ++ [d] ∧ isDig d = true := by
  unfold shw
  have hne := u8ToStr_ne_nil c.blue
  refine ⟨u8ToStr c.red ++ [','] ++ u8ToStr c.green ++ [','] ++ (u8ToStr c.blue).dropLast,
    (u8ToStr c.blue).getLast hne, ?_, u8ToStr_dig _ _ (List.getLast_mem hne)⟩
  rw [List.append_assoc _ (List.dropLast _), List.dropLast_concat_getLast]

end Rgb

theorem dig_not_ws {c : Char} (h : isDig c = true) : isWs c = false := by
  unfold isDig digitVal at h
  unfold isWs
  split at h
  · rename_i hc
    obtain ⟨h1, h2⟩ := hc
    simp only [Bool.or_eq_false_iff, Bool.and_eq_false_iff, decide_eq_false_iff_not, beq_eq_false_iff_ne]
    omega
  · cases h

theorem i32ToStr_nonneg_dig {n : Int32} (h : 0 ≤ n.toInt) : AllC isDig (i32ToStr n) := by
  unfold i32ToStr intToStr
  rw [if_neg (by omega)]
  exact natToStr_digits _

theorem i32ToStr_neg {n : Int32} (h : n.toInt < 0) : ∃ r, i32ToStr n = '-' :: r := by
  unfold i32ToStr intToStr
  rw [if_pos h]; exact ⟨_, rfl⟩

namespace Colour

/-- The colour of an entry. -/
def rgb : Colour → Rgb
  | combo _ c => c
  | sliderTrackOverride c => c
  | sliderBorder c => c

theorem trim_shw (c : Colour) : trim c.shw = c.shw := by
  apply trim_id
  · cases c <;> exact .cons (by decide)
  · have : ∃ a d, c.shw = a ++ [d] ∧ isDig d = true := by
      cases c with
      | combo n c =>
        obtain ⟨a, d, h1, h2⟩ := c.shw_ends
        exact ⟨_, d, by rw [shw, h1, ← List.append_assoc], h2⟩
      | sliderTrackOverride c =>
        obtain ⟨a, d, h1, h2⟩ := c.shw_ends
        exact ⟨_, d, by rw [shw, h1, ← List.append_assoc], h2⟩
      | sliderBorder c =>
        obtain ⟨a, d, h1, h2⟩ := c.shw_ends
        exact ⟨_, d, by rw [shw, h1, ← List.append_assoc], h2⟩
    obtain ⟨a, d, h1, h2⟩ := this
    rw [h1, List.reverse_append]
    exact .cons (dig_not_ws h2)

theorem separator_ok (c : Rgb) : separator (c!" : " ++ c.shw) = .ok c.shw () := by
  unfold separator
  have h : HeadNot isSpace c.shw := by
    unfold Rgb.shw
    rw [List.append_assoc, List.append_assoc, List.append_assoc]
    exact headNot_space_dig (u8ToStr_dig _) (u8ToStr_ne_nil _)
  simp only [bind_eq_ok, ret_eq_ok]
  exact ⟨':' :: ' ' :: c.shw, c!" ", space0_eq_ok.2 ⟨rfl, by decide, .cons (by decide)⟩,
    ' ' :: c.shw, [':'], tag_eq_ok.2 ⟨rfl, rfl⟩, c.shw, c!" ", space0_eq_ok.2 ⟨rfl, by decide, h⟩, rfl, trivial⟩

theorem rgbP_ok (c : Rgb) : rgbP c.shw = .ok [] c := by
  unfold rgbP
  simp only [context_eq_ok, mapRes_eq_ok]
  exact ⟨_, rest_eq_ok.2 ⟨rfl, rfl⟩, Rgb.parse_shw c⟩

theorem tag_err {γ : Type} {t s : Str} (h : t.isPrefixOf s = false) : ∃ e, (tag t : Parser γ Str) s = .error e :=
  ⟨_, by simp only [tag, h]; rfl⟩

theorem comboP_err {s : Str} (h : c!"Combo".isPrefixOf s = false) : ∃ e, comboP s = .error e :=
  bind_err (preceded_err (tag_err h))

theorem trackP_err {s : Str} (h : c!"SliderTrackOverride".isPrefixOf s = false) : ∃ e, trackP s = .error e :=
  map_err (preceded_err (bind_err (tag_err h)))

theorem parse_shw {c : Colour} (h : ∀ n r, c = combo n r → 0 ≤ n.toInt) : parse c.shw = .ok c := by
  have key : parser c.shw = .ok [] c := by
    unfold parser
    cases c with
    | combo n c =>
      refine alt_cons_ok ?_
      unfold comboP
      simp only [bind_eq_ok, preceded_eq_ok, context_eq_ok, cut_eq_ok, ret_eq_ok, mapRes_eq_ok]
      refine ⟨_, n, ⟨_, _, tag_eq_ok.2 ⟨by rw [shw, List.append_assoc, List.append_assoc]; rfl, rfl⟩, _,
        digit1_eq_ok.2 ⟨rfl, i32ToStr_ne_nil n, i32ToStr_nonneg_dig (h n c rfl), .cons (by decide)⟩,
        parseI32_i32ToStr n⟩, _, _, ⟨_, _, separator_ok c, rgbP_ok c⟩, rfl, rfl⟩
    | sliderTrackOverride c =>
      refine alt_cons_err (comboP_err rfl) (alt_cons_ok ?_)
      unfold trackP
      simp only [map_eq_ok, preceded_eq_ok, context_eq_ok, cut_eq_ok, bind_eq_ok]
      exact ⟨_, ⟨_, _, ⟨_, _, tag_eq_ok.2 ⟨(rfl : shw (sliderTrackOverride c) =
        c!"SliderTrackOverride" ++ (c!" : " ++ c.shw)), rfl⟩, separator_ok c⟩, rgbP_ok c⟩, rfl⟩
    | sliderBorder c =>
      refine alt_cons_err (comboP_err rfl) (alt_cons_err (trackP_err rfl) (alt_cons_ok ?_))
      unfold borderP
      simp only [map_eq_ok, preceded_eq_ok, context_eq_ok, cut_eq_ok, bind_eq_ok]
      exact ⟨_, ⟨_, _, ⟨_, _, ⟨_, _, tag_eq_ok.2 ⟨(rfl : shw (sliderBorder c) =
        c!"Slider" ++ (c!"Border" ++ (c!" : " ++ c.shw))), rfl⟩, _, _, alt_cons_ok (char_ok 'B' _),
        tag_eq_ok.2 ⟨(rfl : c!"order" ++ (c!" : " ++ c.shw) = _), rfl⟩⟩, separator_ok c⟩, rgbP_ok c⟩, rfl⟩
  unfold parse
  rw [trim_shw, key]

/-- A negative combo index prints a line that is rejected. -/
theorem parse_shw_neg {n : Int32} (c : Rgb) (h : n.toInt < 0) :
    parse (combo n c).shw = .err .invalidComboCount := by
  obtain ⟨r, hr⟩ := i32ToStr_neg h
  have e : (combo n c).shw = c!"Combo" ++ ('-' :: (r ++ c!" : " ++ c.shw)) := by
    simp [shw, hr]
  have : comboP (combo n c).shw = .failure [('-' :: (r ++ c!" : " ++ c.shw), .nom .digit),
      ('-' :: (r ++ c!" : " ++ c.shw), .ctx (.err .invalidComboCount))] := by
    unfold comboP
    rw [e, bind_app]
    unfold preceded
    rw [bind_ok (tag_ok _ _)]
    rfl
  unfold parse
  rw [trim_shw]
  unfold parser alt altAux
  rw [this]
  rfl

/-- Combo indices that are read are not negative. -/
theorem parse_nonneg {s : Str} {n : Int32} {c : Rgb} (h : parse s = .ok (combo n c)) : 0 ≤ n.toInt := by
  unfold parse at h
  split at h
  · rename_i r x hp
    cases h
    unfold parser at hp
    simp only [alt_cons_eq_ok, alt_nil_eq_ok, context_eq_ok] at hp
    rcases hp with hp | ⟨_, hp | ⟨_, hp | ⟨_, hp | ⟨_, hp⟩⟩⟩⟩
    · unfold comboP at hp
      simp only [bind_eq_ok, preceded_eq_ok, context_eq_ok, cut_eq_ok, ret_eq_ok, mapRes_eq_ok, digit1_eq_ok] at hp
      obtain ⟨r1, n', ⟨r2, t, _, d, ⟨hd0, hne, hd, _⟩, hi⟩, r3, c', _, _, hx⟩ := hp
      cases hx
      -- digits only: not negative
      unfold parseI32 at hi
      obtain ⟨z, hz, hz'⟩ := Res.bind_eq_ok.1 hi
      cases hz'
      cases d with
      | nil => exact absurd rfl hne
      | cons a d =>
        have ha : ∀ x : Char, digitVal x = none → a ≠ x := fun x hx => digitVal_ne hd.of_cons.1 hx
        simp only [parseSigned] at hz
        rw [if_neg (by simp [ha '+' (by decide), ha '-' (by decide)]), if_neg (ha '+' (by decide)),
          if_neg (ha '-' (by decide))] at hz
        obtain ⟨m, hm, hm'⟩ := Res.bind_eq_ok.1 hz
        cases hm'
        have hle := parseDigits_le (by omega) hm
        rw [Int32.toInt_ofInt]
        have hsz : (Int32.size : Int) = 4294967296 := rfl
        have : (m : Int).bmod Int32.size = m := Int.bmod_eq_of_le (by omega) (by omega)
        omega
    · unfold trackP at hp
      obtain ⟨_, _, h⟩ := map_eq_ok.1 hp; cases h
    · unfold borderP at hp
      obtain ⟨_, _, h⟩ := map_eq_ok.1 hp; cases h
    · cases hp
    · cases hp
  · rename_i e _
    unfold toErr at h
    split at h
    · split at h <;> cases h
    · split at h <;> cases h
  · rename_i e _
    unfold toErr at h
    split at h
    · split at h <;> cases h
    · split at h <;> cases h
  · cases h

/-! ### No panic -/

/-- What `toErr` needs of an error. -/
def ErrOK (e : VErr ColCtx) : Prop :=
  (∃ i re, findRgb e = some i ∧ Rgb.parse i = .err re) ∨ (findRgb e = none ∧ ∃ c, firstCtx e = some (.err c))

theorem toErr_no_panic {e : VErr ColCtx} (h : ErrOK e) : toErr e ≠ .panic := by
  unfold toErr
  rcases h with ⟨i, re, h1, h2⟩ | ⟨h1, c, h2⟩
  · simp [h1, h2]
  · simp [h1, h2]

/-- No rgb label occurs. -/
def Plain (e : VErr ColCtx) : Prop := ∀ x ∈ e, ∀ c, x.2 = .ctx c → ∃ k, c = .err k

theorem Plain.findRgb {e : VErr ColCtx} (h : Plain e) : findRgb e = none := by
  induction e with
  | nil => rfl
  | cons x e ih =>
    obtain ⟨i, k⟩ := x
    have h' : Plain e := fun y hy => h y (by simp [hy])
    cases k with
    | ctx c =>
      obtain ⟨k, rfl⟩ := h (i, .ctx c) (by simp) c rfl
      simpa [Colour.findRgb] using ih h'
    | _ => simpa [Colour.findRgb] using ih h'

theorem Plain.firstCtx {e : VErr ColCtx} (h : Plain e) (hs : (firstCtx e).isSome) : ∃ c, firstCtx e = some (.err c) := by
  induction e with
  | nil => cases hs
  | cons x e ih =>
    obtain ⟨i, k⟩ := x
    have h' : Plain e := fun y hy => h y (by simp [hy])
    cases k with
    | ctx c =>
      obtain ⟨k, rfl⟩ := h (i, .ctx c) (by simp) c rfl
      exact ⟨k, rfl⟩
    | _ => simpa [Osu.firstCtx] using ih h' (by simpa [Osu.firstCtx] using hs)

theorem Plain.ctx {e : VErr ColCtx} (h : Plain e) (s : Str) (c : ColourErr) : ErrOK (e ++ [(s, .ctx (.err c))]) := by
  have : Plain (e ++ [(s, .ctx (.err c))]) := by
    intro x hx k hk
    rcases List.mem_append.1 hx with hx | hx
    · exact h x hx k hk
    · simp at hx; subst hx; cases hk; exact ⟨c, rfl⟩
  exact .inr ⟨this.findRgb, this.firstCtx (firstCtx_append_ctx _ _ _)⟩

/-- All errors and failures satisfy `Q`. -/
def ErrP {α : Type} (Q : VErr ColCtx → Prop) (p : Parser ColCtx α) : Prop :=
  ∀ s e, (p s = .error e ∨ p s = .failure e) → Q e

theorem ErrP.bind {α β : Type} {Q} {p : Parser ColCtx α} {f : α → Parser ColCtx β} (hp : ErrP Q p)
    (hf : ∀ a, ErrP Q (f a)) : ErrP Q (p.bind f) := by
  intro s e h
  simp only [bind_app] at h
  cases hs : p s with
  | ok r a => simp only [hs] at h; exact hf a r e h
  | error e' => simp only [hs] at h; rcases h with h | h <;> cases h; exact hp s e (.inl hs)
  | failure e' => simp only [hs] at h; rcases h with h | h <;> cases h; exact hp s e (.inr hs)
  | panic => simp only [hs] at h; rcases h with h | h <;> cases h

theorem ErrP.cut {α : Type} {Q} {p : Parser ColCtx α} (hp : ErrP Q p) : ErrP Q (cut p) := by
  intro s e h
  unfold Parser.cut at h
  cases hs : p s with
  | ok r a => simp only [hs] at h; rcases h with h | h <;> cases h
  | error e' => simp only [hs] at h; rcases h with h | h <;> cases h; exact hp s e (.inl hs)
  | failure e' => simp only [hs] at h; rcases h with h | h <;> cases h; exact hp s e (.inr hs)
  | panic => simp only [hs] at h; rcases h with h | h <;> cases h

theorem ErrP.map {α β : Type} {Q} {p : Parser ColCtx α} {f : α → β} (hp : ErrP Q p) : ErrP Q (p.map f) := by
  intro s e h
  unfold Parser.map at h
  cases hs : p s with
  | ok r a => simp only [hs] at h; rcases h with h | h <;> cases h
  | error e' => simp only [hs] at h; rcases h with h | h <;> cases h; exact hp s e (.inl hs)
  | failure e' => simp only [hs] at h; rcases h with h | h <;> cases h; exact hp s e (.inr hs)
  | panic => simp only [hs] at h; rcases h with h | h <;> cases h

theorem ErrP.ctx {α : Type} {p : Parser ColCtx α} (hp : ErrP Plain p) (c : ColourErr) :
    ErrP ErrOK (context (.err c) p) := by
  intro s e h
  unfold context at h
  cases hs : p s with
  | ok r a => simp only [hs] at h; rcases h with h | h <;> cases h
  | error e' => simp only [hs] at h; rcases h with h | h <;> cases h; exact (hp s e' (.inl hs)).ctx _ _
  | failure e' => simp only [hs] at h; rcases h with h | h <;> cases h; exact (hp s e' (.inr hs)).ctx _ _
  | panic => simp only [hs] at h; rcases h with h | h <;> cases h

theorem plain_nom (s : Str) (k : NomKind) : Plain [(s, .nom k)] := by
  intro x hx c hc; simp at hx; subst hx; cases hc

theorem plain_char (s : Str) (k : Char) : Plain [(s, .char k)] := by
  intro x hx c hc; simp at hx; subst hx; cases hc

theorem ErrP.tag (t : Str) : ErrP Plain (Parser.tag t) := by
  intro s e h
  unfold Parser.tag at h
  split at h
  · rcases h with h | h <;> cases h
  · rcases h with h | h <;> cases h; exact plain_nom _ _

theorem ErrP.takeWhile (f : Char → Bool) {Q} : ErrP Q (Parser.takeWhile f) := by
  intro s e h; rcases h with h | h <;> cases h

theorem ErrP.ret {α : Type} (a : α) {Q} : ErrP Q (Parser.ret a) := by
  intro s e h; rcases h with h | h <;> cases h

theorem ErrP.space0 {Q} : ErrP Q Parser.space0 := ErrP.takeWhile _

theorem ErrP.separator : ErrP Plain separator :=
  .bind .space0 fun _ => .bind (.tag _) fun _ => .bind .space0 fun _ => .ret _

theorem ErrP.rgbP : ErrP ErrOK rgbP := by
  intro s e h
  have hm : ∀ e : VErr ColCtx, mapRes rest Rgb.parse s = .error e → (∃ re, Rgb.parse s = .err re) ∧ e = [(s, .nom .mapRes)] := by
    intro e h
    unfold mapRes rest at h
    cases hr : Rgb.parse s with
    | ok a => simp only [hr] at h; cases h
    | err re => simp only [hr] at h; cases h; exact ⟨⟨re, rfl⟩, rfl⟩
    | panic => simp only [hr] at h; cases h
  have hf : ∀ e, mapRes rest Rgb.parse s ≠ (.failure e : PRes ColCtx Rgb) := by
    intro e h
    unfold mapRes rest at h
    cases hr : Rgb.parse s <;> (simp only [hr] at h; cases h)
  unfold Colour.rgbP context at h
  cases hs : mapRes (rest : Parser ColCtx Str) Rgb.parse s with
  | ok r a => simp only [hs] at h; rcases h with h | h <;> cases h
  | failure e' => exact absurd hs (hf e')
  | panic => simp only [hs] at h; rcases h with h | h <;> cases h
  | error e' =>
    obtain ⟨⟨re, hre⟩, rfl⟩ := hm _ hs
    simp only [hs] at h
    rcases h with h | h <;> cases h
    exact .inl ⟨s, re, rfl, hre⟩

theorem ErrP.digit : ErrP Plain (mapRes digit1 parseI32) := by
  intro s e h
  unfold mapRes digit1 at h
  split at h
  · rename_i r a hd
    split at h
    · rcases h with h | h <;> cases h
    · rcases h with h | h <;> cases h; exact plain_nom _ _
    · rcases h with h | h <;> cases h
  · rename_i e' hd
    split at hd
    · cases hd; rcases h with h | h <;> cases h; exact plain_nom _ _
    · cases hd
  · rename_i e' hd
    split at hd <;> cases hd
  · rcases h with h | h <;> cases h

/-- Failures of `preceded p q` when `p` does not fail hard. -/
theorem failure_preceded {α β : Type} {Q : VErr ColCtx → Prop} {p : Parser ColCtx α} {q : Parser ColCtx β}
    (hp : ∀ s e, p s = .failure e → Q e) (hq : ErrP Q q) {s : Str} {e : VErr ColCtx}
    (h : preceded p q s = .failure e) : Q e := by
  unfold preceded at h
  rw [bind_app] at h
  cases hs : p s with
  | ok r a => simp only [hs] at h; exact hq r e (.inr h)
  | failure e' => simp only [hs] at h; cases h; exact hp s _ hs
  | _ => simp only [hs] at h; cases h

theorem tag_no_failure {γ : Type} {t s : Str} {e : VErr γ} : (tag t : Parser γ Str) s ≠ .failure e := by
  unfold tag; split <;> exact nofun

theorem comboP_failure {s : Str} {e : VErr ColCtx} (h : comboP s = .failure e) : ErrOK e := by
  unfold comboP at h
  rw [bind_app] at h
  cases hs : preceded (tag c!"Combo") (context (ColCtx.err .invalidComboCount) (cut (mapRes digit1 parseI32))) s with
  | ok r a =>
    simp only [hs] at h
    exact (ErrP.bind (ErrP.cut (ErrP.bind (ErrP.ctx ErrP.separator _) fun _ => ErrP.rgbP)) fun _ => ErrP.ret _) r e
      (.inr h)
  | failure e' =>
    simp only [hs] at h
    cases h
    exact failure_preceded (Q := ErrOK) (fun s e h => absurd h tag_no_failure)
      (ErrP.ctx (ErrP.cut ErrP.digit) _) hs
  | _ => simp only [hs] at h; cases h

theorem failure_map {α β : Type} {p : Parser ColCtx α} {f : α → β} {s : Str} {e : VErr ColCtx}
    (h : map p f s = .failure e) : p s = .failure e := by
  unfold map at h
  cases hs : p s with
  | failure e' => simp only [hs] at h; cases h; rfl
  | _ => simp only [hs] at h; cases h

theorem failure_bind {α β : Type} {p : Parser ColCtx α} {f : α → Parser ColCtx β} {s : Str} {e : VErr ColCtx}
    (h : p.bind f s = .failure e) : p s = .failure e ∨ ∃ r a, p s = .ok r a ∧ f a r = .failure e := by
  rw [bind_app] at h
  cases hs : p s with
  | ok r a => simp only [hs] at h; exact .inr ⟨r, a, rfl, h⟩
  | failure e' => simp only [hs] at h; cases h; exact .inl rfl
  | _ => simp only [hs] at h; cases h

theorem trackP_failure {s : Str} {e : VErr ColCtx} (h : trackP s = .failure e) : ErrOK e := by
  refine failure_preceded (Q := ErrOK) (fun s e h => ?_) (ErrP.cut ErrP.rgbP) (failure_map h)
  rcases failure_bind h with h | ⟨r, a, _, h⟩
  · exact absurd h tag_no_failure
  · exact ErrP.ctx (ErrP.cut ErrP.separator) _ r e (.inr h)

theorem char_no_failure {γ : Type} {c : Char} {s : Str} {e : VErr γ} : (char c : Parser γ Char) s ≠ .failure e := by
  unfold char; split <;> (try split) <;> exact nofun

theorem borderP_failure {s : Str} {e : VErr ColCtx} (h : borderP s = .failure e) : ErrOK e := by
  refine failure_preceded (Q := ErrOK) (fun s e h => ?_) (ErrP.cut ErrP.rgbP) (failure_map h)
  rcases failure_bind h with h | ⟨r, a, _, h⟩
  · rcases failure_bind h with h | ⟨r, a, _, h⟩
    · exact absurd h tag_no_failure
    · rcases failure_bind h with h | ⟨r, a, _, h⟩
      · have := (SafeF.alt (P := fun _ => False) (ps := [char 'B', char 'b']) (γ := ColCtx) (by
          intro p hp; simp at hp; rcases hp with rfl | rfl <;> exact .char _))
        unfold alt altAux at h
        cases h1 : (char 'B' : Parser ColCtx Char) r with
        | failure e => exact absurd h1 char_no_failure
        | error e1 =>
          simp only [h1, altAux] at h
          cases h2 : (char 'b' : Parser ColCtx Char) r with
          | failure e => exact absurd h2 char_no_failure
          | _ => simp only [h2] at h; cases h
        | _ => simp only [h1] at h; cases h
      · exact absurd h tag_no_failure
  · exact ErrP.ctx (ErrP.cut ErrP.separator) _ r e (.inr h)

theorem rgbP_safe : Safe (fun _ => False) rgbP :=
  ((Good.rest.toSafe.mapRes Rgb.parse_no_panic).context _).toSafe

theorem separator_safe : Safe (fun _ => False) separator := by
  have U := @Upward.false
  exact Good.space0.toSafe.bind U fun _ => (SafeF.tag _).toSafe.bind U fun _ =>
    Good.space0.toSafe.bind U fun _ => (Good.ret _).toSafe

theorem comboP_no_panic (s : Str) : comboP s ≠ .panic := by
  have U := @Upward.false
  have : Safe (fun _ => False) comboP :=
    (Safe.preceded U (SafeF.tag _).toSafe ((SafeF.digit1.toSafe.mapRes parseI32_no_panic).cut.context _).toSafe).bind U
      fun n => (Safe.preceded U (separator_safe.context _).toSafe rgbP_safe).cut.bind U fun c => (Good.ret _).toSafe
  exact fun h => this.panic h

theorem trackP_no_panic (s : Str) : trackP s ≠ .panic := by
  have U := @Upward.false
  have : Safe (fun _ => False) trackP :=
    (Safe.preceded U ((SafeF.tag _).toSafe.bind U fun _ => (separator_safe.cut.context _).toSafe) rgbP_safe.cut).map _
  exact fun h => this.panic h

theorem borderP_no_panic (s : Str) : borderP s ≠ .panic := by
  have U := @Upward.false
  have h1 : SafeF (fun _ => False) (alt [char 'B', char 'b'] : Parser ColCtx Char) := .alt (by
    intro p hp; simp at hp; rcases hp with rfl | rfl <;> exact .char _)
  have : Safe (fun _ => False) borderP :=
    (Safe.preceded U (((SafeF.tag _).toSafe.bind U fun _ => h1.toSafe.bind U fun _ => (SafeF.tag _).toSafe).bind U
      fun _ => (separator_safe.cut.context _).toSafe) rgbP_safe.cut).map _
  exact fun h => this.panic h

theorem parse_no_panic (s : Str) : parse s ≠ .panic := by
  have key : ∀ s, parser s ≠ .panic ∧ ∀ e, (parser s = .error e ∨ parser s = .failure e) → ErrOK e := by
    intro s
    unfold parser alt altAux
    cases h1 : comboP s with
    | ok r a => exact ⟨nofun, by rintro e (h | h) <;> cases h⟩
    | panic => exact absurd h1 (comboP_no_panic s)
    | failure e => exact ⟨nofun, by rintro e (h | h) <;> cases h; exact comboP_failure h1⟩
    | error e1 =>
      simp only [altAux]
      cases h2 : trackP s with
      | ok r a => exact ⟨nofun, by rintro e (h | h) <;> cases h⟩
      | panic => exact absurd h2 (trackP_no_panic s)
      | failure e => exact ⟨nofun, by rintro e (h | h) <;> cases h; exact trackP_failure h2⟩
      | error e2 =>
        simp only
        cases h3 : borderP s with
        | ok r a => exact ⟨nofun, by rintro e (h | h) <;> cases h⟩
        | panic => exact absurd h3 (borderP_no_panic s)
        | failure e => exact ⟨nofun, by rintro e (h | h) <;> cases h; exact borderP_failure h3⟩
        | error e3 =>
          simp only [context, fail]
          refine ⟨nofun, ?_⟩
          rintro e (h | h) <;> cases h
          exact .inr ⟨rfl, _, rfl⟩
  unfold parse
  obtain ⟨h1, h2⟩ := key (trim s)
  cases hp : parser (trim s) with
  | ok r a => exact nofun
  | panic => exact absurd hp h1
  | error e => exact toErr_no_panic (h2 e (.inl hp))
  | failure e => exact toErr_no_panic (h2 e (.inr hp))

/-- A printed colour is a line. -/
theorem shw_lineOK (c : Colour) : LineOK c.shw := by
  have hc : AllC (fun d => !(d == '\n' || d == '\r')) c.shw := by
    have hr : ∀ x : Rgb, AllC (fun d => !(d == '\n' || d == '\r')) x.shw := by
      intro x d hd
      rcases x.shw_chars d hd with h | rfl
      · have h1 := digitVal_ne h (d := '\n') (by decide)
        have h2 := digitVal_ne h (d := '\r') (by decide)
        simp [h1, h2]
      · decide
    cases c with
    | combo n c =>
      refine .append (.append (.append (by decide) ?_) (by decide)) (hr c)
      intro d hd
      have := i32ToStr_chars n d hd
      unfold isIntChar at this
      simp only [Bool.or_eq_true] at this
      rcases this with h | h
      · have h1 := digitVal_ne h (d := '\n') (by decide)
        have h2 := digitVal_ne h (d := '\r') (by decide)
        simp [h1, h2]
      · simp at h; subst h; decide
    | sliderTrackOverride c => exact .append (by decide) (hr c)
    | sliderBorder c => exact .append (by decide) (hr c)
  refine ⟨hc.noLF (by decide), hc.noEndCR (by decide), ?_⟩
  rw [nonBlank_iff, trim_shw]
  cases c <;> simp [shw]

end Colour
end Osu
