/-
C70: values made by constructors are written and read back.
-/
import Verif.Model.Constructors
import Verif.Props.Events
import Verif.Props.HitObjects
import Verif.Proof.DecArith96

namespace Osu
open SB Ev

section
variable {D : Type} [DecLib D]

/-! ### Decimals -/

/-- A decimal made from an integer has the text of the integer, and that text is read as this decimal. -/
theorem C70_decimal_int [DecArith D] (n : Int32) :
    (Decimal.ofI32 n : Decimal D).toStr = i32ToStr n ∧ (Decimal.ofStr (i32ToStr n) : Decimal D) = .ofI32 n := by
  have h := DecArith.shw_ofI32 (D := D) n
  refine ⟨h, ?_⟩
  have := DecLib.parse_shw (DecArith.canon_ofI32 (D := D) n)
  rw [h] at this
  unfold Decimal.ofStr Decimal.ofI32
  rw [this]

example : (Decimal.ofI32 (-5) : Decimal Dec96).toStr = c!"-5" := (C70_decimal_int (-5)).1.trans (by decide)

/-- A decimal made from text has that text, but is what the text is read as only if the text is not a number. -/
theorem C70_decimal_text (s : Str) :
    (Decimal.newFromStr s : Decimal D).toStr = s ∧
    ((Decimal.ofStr s : Decimal D) = .newFromStr s ↔ (DecLib.parse s : Option D) = none) := by
  refine ⟨rfl, ?_⟩
  unfold Decimal.ofStr Decimal.newFromStr
  cases (DecLib.parse s : Option D) <;> simp

example : (Decimal.newFromStr c!"1.5" : Decimal Dec96).toStr = c!"1.5" ∧ (Decimal.ofStr c!"1.5" : Decimal Dec96) ≠ .newFromStr c!"1.5" :=
  ⟨(C70_decimal_text _).1, fun h => absurd ((C70_decimal_text _).2.1 h) (by decide)⟩

/-- `try_make_decimal` gives, whether it succeeds or not, what the text of the value is read as. It fails exactly
for text that is not a number, and then changes nothing. The result is what its own text is read as. -/
theorem C70_try_make {x : Decimal D} (h : ∀ d, x = .new d → DecLib.canon d) :
    (x.tryMakeDecimal).1 = .ofStr x.toStr ∧
    ((x.tryMakeDecimal).2 = false ↔ ∃ s, x = .newFromStr s ∧ (DecLib.parse s : Option D) = none) ∧
    ((x.tryMakeDecimal).2 = false → (x.tryMakeDecimal).1 = x) ∧
    (Decimal.ofStr (x.tryMakeDecimal).1.toStr : Decimal D) = (x.tryMakeDecimal).1 := by
  cases x with
  | left d =>
    have := DecLib.parse_shw (h d rfl)
    simp [Decimal.tryMakeDecimal, Decimal.ofStr, Decimal.toStr, Decimal.newFromStr, this]
  | right s =>
    unfold Decimal.tryMakeDecimal
    cases hs : (DecLib.parse s : Option D) with
    | none => simp [Decimal.ofStr, Decimal.toStr, Decimal.newFromStr, hs]
    | some d =>
      have := DecLib.parse_shw (DecLib.parse_canon hs)
      simp [Decimal.ofStr, Decimal.toStr, Decimal.newFromStr, hs, this]

/-! ### Events -/

/-- A break made by the constructor is written exactly if its times fit, as the short form with both times, and
is read as the same break. -/
theorem C70_break [UniLib] (v : Nat) (s e : Int32) :
    ((∃ l, Event.shw v [] (.break_ (Break.new s e) : Event D) = some (some l)) ↔ TimeFits v s ∧ TimeFits v e) ∧
    ∀ l, Event.shw v [] (.break_ (Break.new s e) : Event D) = some (some l) →
      (∃ n m, OldTime v n s ∧ OldTime v m e ∧ l = c!"2," ++ i32ToStr n ++ [','] ++ i32ToStr m) ∧
      Events.parse v l = .ok [(.break_ (Break.new s e) : Event D)] := by
  have key : ∀ l, Event.shw v [] (.break_ (Break.new s e) : Event D) = some (some l) → TimeFits v s ∧ TimeFits v e := by
    intro l h
    by_cases hs : TimeFits v s
    · by_cases he : TimeFits v e
      · exact ⟨hs, he⟩
      · simp [Event.shw, Break.shw, Break.new, timeNotFits he] at h
    · simp [Event.shw, Break.shw, Break.new, timeNotFits hs] at h
  have mk : TimeFits v s → TimeFits v e → ∃ l, Event.shw v [] (.break_ (Break.new s e) : Event D) = some (some l) ∧
      Events.parse v l = .ok [(.break_ (Break.new s e) : Event D)] :=
    fun hs he => C34_round_trip_plain (D := D) (v := v) (e := .break_ (Break.new s e)) ⟨hs, he⟩ rfl (by intro f hf; cases hf)
  refine ⟨⟨fun ⟨l, h⟩ => key l h, fun ⟨hs, he⟩ => (mk hs he).imp fun _ h => h.1⟩, fun l h => ?_⟩
  obtain ⟨hs, he⟩ := key l h
  obtain ⟨l', h1, h2⟩ := mk hs he
  rw [h] at h1
  cases h1
  refine ⟨?_, h2⟩
  obtain ⟨n, hn, tn⟩ := timeFits hs
  obtain ⟨m, hm, tm⟩ := timeFits he
  refine ⟨n, m, hn, hm, ?_⟩
  simp only [Event.shw, Break.shw, Break.new, tn, tm, Option.map_some, Option.some.injEq, bind, Option.bind_some] at h
  rw [← h]
  simp

/-- A video made by the constructor is written exactly if its time fits, as the short form. If path and position can
be written, it is read as the same video, with quotes around the path if the path needs them. -/
theorem C70_video [UniLib] (v : Nat) (t : Int32) (f : FilePath) (p : Option (Position D)) :
    ((∃ l, Event.shw v [] (.video (Video.new t f p) : Event D) = some (some l)) ↔ TimeFits v t) ∧
    ∀ l, Event.shw v [] (.video (Video.new t f p) : Event D) = some (some l) →
      (∃ n rest, OldTime v n t ∧ l = c!"1," ++ i32ToStr n ++ [','] ++ FilePath.toStr f ++ rest ∧ (p = none → rest = [])) ∧
      (PathWritable f → PosWritable p → Events.parse v l = .ok [.video (Video.new t (quotePath f) p)]) := by
  have key : ∀ l, Event.shw v [] (.video (Video.new t f p) : Event D) = some (some l) → TimeFits v t := by
    intro l h
    by_cases ht : TimeFits v t
    · exact ht
    · simp [Event.shw, Video.shwCmd, Video.new, timeNotFits ht] at h
  refine ⟨⟨fun ⟨l, h⟩ => key l h, fun ht => ?_⟩, fun l h => ⟨?_, fun hf hp => ?_⟩⟩
  · obtain ⟨n, hn, tn⟩ := timeFits ht
    exact ⟨_, by simp only [Event.shw, Video.shwCmd, Video.new, tn, Option.map_some, Option.bind_some, withCmds]; rfl⟩
  · obtain ⟨n, hn, tn⟩ := timeFits (key l h)
    refine ⟨n, positionStr p, hn, ?_, fun hp => by rw [hp]; rfl⟩
    simp only [Event.shw, Video.shwCmd, Video.new, tn, Option.map_some, Option.bind_some, withCmds] at h
    rw [Option.map_eq_some_iff] at h
    obtain ⟨a, ha, hl⟩ := h
    cases hl
    cases ha
    simp
    rfl
  · obtain ⟨l', h1, -, h2⟩ := C34_round_trip (D := D) (v := v) (e := .video (Video.new t f p)) ⟨key l h, hf, hp⟩ rfl
    rw [h] at h1
    cases h1
    exact h2

/-- C03: the path of an event is read as it was printed, quotes included, and printed as the same line again. A path that
needs no quotes is read back unchanged, and with it the event. -/
theorem C03_read [UniLib] {v : Nat} {e : Event D} (hw : HeadWritable v e) (hc : cmdsOf e = []) {f : FilePath} (hf : pathOf e = some f) :
    ∃ l e', Event.shw v [] e = some (some l) ∧ Events.parse v l = .ok [e'] ∧ pathOf e' = some (FilePath.toStr f) ∧
      Event.shw v [] e' = some (some l) ∧ (¬(' ' ∈ f ∧ ¬(f.head? = some '"' ∧ f.getLast? = some '"')) → pathOf e' = some f ∧ e' = e) := by
  obtain ⟨l, h1, -, h2⟩ := C34_round_trip hw hc
  have hp : pathOf (quoted e) = some (quotePath f) := by
    unfold quoted
    rw [hf]
    cases e with
    | object o =>
      obtain ⟨l, og, p, ty, cs⟩ := o
      cases ty <;> rfl
    | comment => cases hf
    | break_ => cases hf
    | colourTransformation => cases hf
    | _ => rfl
  refine ⟨l, quoted e, h1, h2, by rw [hp, path_toStr], by rw [shw_quoted, h1], fun hn => ?_⟩
  have hpl : PathPlain f := by
    unfold PathPlain
    by_cases hb : ' ' ∈ f
    · exact .inr (Classical.byContradiction fun h => hn ⟨hb, h⟩)
    · exact .inl hb
  exact ⟨by rw [hp, quotePath_of_plain hpl], quoted_plain fun g hg => by rw [hf] at hg; cases hg; exact hpl⟩

/-- C70: a path that is set any number of times is the one set last, also an empty one, and printed as such. -/
theorem C70_path_set (p : FilePath) (ps : List Str) :
    ps.foldl FilePath.set p = ps.getLast?.getD p ∧
      FilePath.toStr (ps.foldl FilePath.set p) = quotePath (ps.getLast?.getD p) := by
  have h : ps.foldl FilePath.set p = ps.getLast?.getD p := by
    induction ps generalizing p with
    | nil => rfl
    | cons q ps ih =>
      rw [List.foldl_cons, ih]
      cases ps with
      | nil => rfl
      | cons r rs => rw [List.getLast?_cons_cons]; cases h : (r :: rs).getLast? <;> simp at h ⊢
  exact ⟨h, by rw [h, path_toStr]⟩

example : [c!"a b", c!"", c!"c d"].foldl FilePath.set c!"e" = c!"c d" ∧
    FilePath.toStr ([c!"a b", c!"", c!"c d"].foldl FilePath.set c!"e") = c!"\"c d\"" := by decide

/-- `Sprite::new` refuses exactly the paths that start with a slash and keeps every other path. -/
theorem C70_sprite_new (f : FilePath) :
    ((Sprite.new f : Option (ObjectType D)) = none ↔ ∃ g, f = '/' :: g) ∧
    ∀ o, (Sprite.new f : Option (ObjectType D)) = some o → o = .sprite f := by
  unfold Sprite.new
  cases f with
  | nil => simp [startsWith]
  | cons c cs =>
    by_cases h : c = '/'
    · subst h; simp [startsWith]
    · have h' : ¬ '/' = c := fun e => h e.symm
      simp [startsWith, h, h']

example : (Sprite.new c!"/a" : Option (ObjectType Dec96)) = none ∧ (Sprite.new c!"a/b" : Option (ObjectType Dec96)) = some (.sprite c!"a/b") :=
  ⟨(C70_sprite_new _).1.2 ⟨c!"a", rfl⟩, by decide⟩

/-- A sprite made by the constructor with an origin made from its type: its origin is written as the number of the
type, and it is read as the same sprite, with quotes around the path if the path needs them. -/
theorem C70_sprite [UniLib] {v : Nat} {f : FilePath} {o : ObjectType D} (la : Layer) (t : OriginType) {pos : Position D}
    (ho : Sprite.new f = some o) (hf : PathWritable f) (hx : FieldDec pos.x) (hy : FieldDec pos.y) :
    ∃ l n, Event.shw v [] (.object ⟨la, .ofType t, pos, o, []⟩ : Event D) = some (some l) ∧
      originTypes[n]? = some t ∧ (c!"Sprite," ++ la.shw ++ [','] ++ natToStr n ++ [',']) <+: l ∧
      Events.parse v l = .ok [.object ⟨la, .ofType t, pos, .sprite (quotePath f), []⟩] := by
  cases (C70_sprite_new f).2 o ho
  obtain ⟨l, h1, -, h2⟩ := C34_round_trip (D := D) (v := v) (e := .object ⟨la, .ofType t, pos, .sprite f, []⟩)
    ⟨trivial, hx, hy, hf⟩ rfl
  have hl : Event.shw v [] (.object ⟨la, .ofType t, pos, .sprite f, []⟩ : Event D) = some (some (c!"Sprite," ++ la.shw ++ [','] ++
      i32ToStr t.toInt ++ [','] ++ FilePath.toStr f ++ [','] ++ (pos.x.toStr ++ [','] ++ pos.y.toStr) ++ [])) := rfl
  rw [h1] at hl
  cases hl
  refine ⟨_, t.toInt.toInt.toNat, h1, by cases t <;> decide, ?_, h2⟩
  have : i32ToStr t.toInt = natToStr t.toInt.toInt.toNat := by cases t <;> decide
  rw [this]
  exact ⟨FilePath.toStr f ++ [','] ++ (pos.x.toStr ++ [','] ++ pos.y.toStr), by simp [List.append_assoc]⟩

/-- An animation line without loop type has the default one. -/
theorem C70_loop_default [UniLib] {v : Nat} {la : Layer} {o f x y n d : Str} {e : Event D}
    (h : parseEvent v (join [','] [c!"Animation", la.shw, o, f, x, y, n, d]) = .ok e)
    (hc : ∀ p ∈ [o, f, x, y, n, d], ',' ∉ p) :
    ∃ og pos k delay, e = .object ⟨la, og, pos, .animation k delay .default f, []⟩ := by
  rw [C34_grammar, splitOnC_join (by simp)] at h
  · generalize hl : [c!"Animation", la.shw, o, f, x, y, n, d] = w at h
    cases h with
    | animation ho hc hd hp =>
      simp only [List.cons.injEq, true_and] at hl
      obtain ⟨h1, rfl, rfl, rfl, rfl, rfl, rfl, rfl⟩ := hl
      rename_i l _ _ _ _
      have : la = l := by revert h1; cases la <;> cases l <;> decide
      subst this
      cases hp
      exact ⟨_, _, _, _, rfl⟩
    | video hh _ _ _ =>
      exact absurd ((List.cons.inj hl).1.trans hh) (by split <;> decide)
    | break_ hh _ _ _ _ =>
      exact absurd ((List.cons.inj hl).1.trans hh) (by split <;> decide)
    | _ => exact absurd (List.cons.inj hl).1 (by decide)
  · intro q hq e he
    rcases List.mem_cons.1 hq with rfl | hq
    · revert e; decide
    rcases List.mem_cons.1 hq with rfl | hq
    · revert e; cases la <;> decide
    · have := hc q hq
      simp only [Bool.not_eq_true', beq_eq_false_iff_ne]
      rintro rfl; exact this he

/-! ### Hit objects whose position and time were given as text -/

/-- The hit object after `try_make_decimal` on its position and time. -/
def HitObject.made (o : HitObject D) : HitObject D :=
  { o with
    position := ⟨o.position.x.tryMakeDecimal.1, o.position.y.tryMakeDecimal.1⟩
    time := o.time.tryMakeDecimal.1 }

theorem HitObject.shw_head {v : Nat} (hv : 5 ≤ v) (o : HitObject D) : ∃ rest : Option Str, ∀ x y t : Decimal D,
    HitObject.shw v { o with position := ⟨x, y⟩, time := t } =
      rest.map fun r => x.toStr ++ ',' :: (y.toStr ++ ',' :: (t.toStr ++ ',' :: r)) := by
  have hs : ∀ t : Decimal D, t.toStrShifted v = some t.toStr := by
    intro t
    cases t with
    | left d => simp only [Decimal.toStrShifted, Decimal.toStr]; rw [if_neg (by omega)]
    | right s => rfl
  have h3 : ¬ v = 3 := by omega
  obtain ⟨pos, time, params, nc, sk, snd, smp⟩ := o
  cases params with
  | hitCircle =>
    refine ⟨some (join [','] ([u8ToStr (HitObject.typeByte ⟨pos, time, .hitCircle, nc, sk, snd, smp⟩), snd.shw] ++ HitObject.sampleList v smp)), ?_⟩
    intro x y t
    simp only [HitObject.shw, hs, Option.bind_some, h3, if_false, Option.map_some, HitObject.typeByte, List.cons_append, List.nil_append,
      join_eq_preC, preC_cons]
  | slider p =>
    refine ⟨some (join [','] [u8ToStr (HitObject.typeByte ⟨pos, time, .slider p, nc, sk, snd, smp⟩), snd.shw, p.curveType.shw] ++
      (if p.curvePoints ≠ [] then ['|'] else [',']) ++ join [','] (HitObject.sliderTail v pos p smp)), ?_⟩
    intro x y t
    have ht : ∀ q : Position D, HitObject.sliderTail v q p smp = HitObject.sliderTail v pos p smp := by
      intro q; simp [HitObject.sliderTail, h3]
    simp only [HitObject.shw, hs, Option.bind_some, h3, false_or, Option.map_some, HitObject.typeByte, List.cons_append, List.nil_append,
      join_eq_preC, preC_cons, ht]
    split <;> simp
  | spinner e =>
    refine ⟨some (join [','] ([u8ToStr (HitObject.typeByte ⟨pos, time, .spinner e, nc, sk, snd, smp⟩), snd.shw, e.toStr] ++ HitObject.sampleList v smp)), ?_⟩
    intro x y t
    simp only [HitObject.shw, hs, Option.bind_some, Option.map_some, HitObject.typeByte, List.cons_append, List.nil_append,
      join_eq_preC, preC_cons]
  | hold e =>
    refine ⟨some (join [','] [u8ToStr (HitObject.typeByte ⟨pos, time, .hold e, nc, sk, snd, smp⟩), snd.shw, e.toStr] ++ [':'] ++
      HitObject.sampleText v smp), ?_⟩
    intro x y t
    simp only [HitObject.shw, hs, Option.bind_some, Option.map_some, HitObject.typeByte, List.cons_append, List.nil_append,
      join_eq_preC, preC_cons]
    simp

theorem ofStr_made {x : Decimal D} (h : ∀ d, x = .new d → DecLib.canon d) :
    (Decimal.ofStr x.tryMakeDecimal.1.toStr : Decimal D) = .ofStr x.toStr := by
  obtain ⟨h1, -, -, h2⟩ := C70_try_make h
  rw [h2, h1]

theorem HOReads.congr {v : Nat} (hv : 5 ≤ v) {x y t x' y' t' : Str} {ps : List Str} {o : HitObject D}
    (hx : (Decimal.ofStr x : Decimal D) = .ofStr x') (hy : (Decimal.ofStr y : Decimal D) = .ofStr y')
    (ht : (Decimal.ofStr t : Decimal D) = .ofStr t') (h : HOReads v (x :: y :: t :: ps) o) : HOReads v (x' :: y' :: t' :: ps) o := by
  have tr : ∀ (p : Str) (d : Decimal D), TimeReads v p d ↔ d = .ofStr p := by
    intro p d
    unfold TimeReads Decimal.ofStr
    cases (DecLib.parse p : Option D) with
    | none => rfl
    | some e => simp only; rw [if_neg (by omega)]
  have hd : ∀ {ty hs : Str} {n : Int32} {o : HitObject D}, HOHead v x y t ty hs n o → HOHead v x' y' t' ty hs n o := by
    rintro ty hs n o ⟨a, b, c, d, e, f, g⟩
    exact ⟨a.trans hx, b.trans hy, (tr _ _).2 (((tr _ _).1 c).trans ht), d, e, f, g⟩
  cases h with
  | circle a b c d => exact .circle (hd a) b c d
  | slider a b c d e => exact .slider (hd a) b c d e
  | spinner a b c d e f g => exact .spinner (hd a) b c d e f g
  | hold a b c d e f g => exact .hold (hd a) b c d e f g

/-- From version 5 on, a hit object whose position and time may have been given as text is read back as the object
with numbers instead of texts that are numbers (up to what a version does not write, `hoBack`). -/
theorem C70_hit_object {v : Nat} (hv : 5 ≤ v) {o : HitObject D} (hw : HOWritable v o.made)
    (hc : ∀ d, d = o.position.x ∨ d = o.position.y ∨ d = o.time →
      (∀ c ∈ d.toStr, fieldChar c = true) ∧ ∀ e, d = .new e → DecLib.canon e) :
    ∃ s, o.shw v = some s ∧ HitObject.parse v s = .ok (hoBack v o.made) := by
  obtain ⟨rest, hr⟩ := HitObject.shw_head hv o
  obtain ⟨s1, h1, -, h2⟩ := HitObject.round_trip hw
  have e1 : HitObject.shw v o.made = _ := hr _ _ _
  have e0 : HitObject.shw v o = _ := hr o.position.x o.position.y o.time
  rw [h1] at e1
  cases rest with
  | none => cases e1
  | some r =>
    simp only [Option.map_some, Option.some.injEq] at e1 e0
    refine ⟨_, e0, HitObject.parse_iff.2 ?_⟩
    rw [HitObject.parse_iff] at h2
    have sp : ∀ {a b c : Str}, (∀ d ∈ a, fieldChar d = true) → (∀ d ∈ b, fieldChar d = true) → (∀ d ∈ c, fieldChar d = true) →
        splitOnC ',' (a ++ ',' :: (b ++ ',' :: (c ++ ',' :: r))) = a :: b :: c :: splitOnC ',' r := by
      intro a b c ha hb hc
      rw [splitOnC_append (noComma_of_field ha), splitOnC_append (noComma_of_field hb), splitOnC_append (noComma_of_field hc)]
    obtain ⟨tm, n, t1, ⟨cx, cy, ct, -, -⟩, -, -⟩ := HitObject.head_print hw
    have ct' : ∀ c ∈ (o.made).time.toStr, fieldChar c = true := by
      have : (o.made).time.toStrShifted v = some (o.made).time.toStr := by
        cases (o.made).time with
        | left d => simp only [Decimal.toStrShifted, Decimal.toStr]; rw [if_neg (by omega)]
        | right s => rfl
      rw [t1] at this
      cases this
      exact ct
    have h3 := sp (a := (o.made).position.x.toStr) (b := (o.made).position.y.toStr) cx cy ct'
    rw [e1] at h2
    simp only [HitObject.made] at h3
    rw [h3] at h2
    rw [sp (hc _ (.inl rfl)).1 (hc _ (.inr (.inl rfl))).1 (hc _ (.inr (.inr rfl))).1]
    exact h2.congr hv (ofStr_made (hc _ (.inl rfl)).2) (ofStr_made (hc _ (.inr (.inl rfl))).2) (ofStr_made (hc _ (.inr (.inr rfl))).2)

end

/-! ### Cases -/

section
attribute [local instance] asciiUni

/-- Reading accepts the paths that `Sprite::new` refuses. -/
theorem C70_false_sprite : ∃ e : Event Dec96, Events.parse 14 c!"Sprite,Pass,1,/a.png,0,0" = .ok [e] ∧ pathOf e = some c!"/a.png" ∧
    (Sprite.new c!"/a.png" : Option (ObjectType Dec96)) = none :=
  ⟨.object ⟨.pass, .ofType .centre, ⟨.ofStr c!"0", .ofStr c!"0"⟩, .sprite c!"/a.png", []⟩, by rfl, rfl, by decide⟩

/-- A numeric time given as text is not moved when written in version 4, but is when read: it comes back 24 later,
while the same time given as a number comes back unchanged. -/
theorem C70_false_old_time : ∃ o o' : HitObject Dec96, o.shw 4 = some c!"1,2,100,1,0" ∧ o.time = .newFromStr c!"100" ∧
    HitObject.parse 4 c!"1,2,100,1,0" = .ok o' ∧ o'.time = .ofI32 124 ∧ (o.made).shw 4 = some c!"1,2,76,1,0" ∧
    HitObject.parse 4 c!"1,2,76,1,0" = .ok o.made :=
  ⟨⟨⟨.left ⟨false, 1, 0⟩, .left ⟨false, 2, 0⟩⟩, .right c!"100", .hitCircle, false, ⟨0⟩, ⟨false, false, false, false⟩, none⟩,
   ⟨⟨.left ⟨false, 1, 0⟩, .left ⟨false, 2, 0⟩⟩, .left ⟨false, 124, 0⟩, .hitCircle, false, ⟨0⟩, ⟨false, false, false, false⟩, none⟩,
   by decide, rfl, by decide, by decide, by decide, by decide⟩

example : (Decimal.ofI32 (-12) : Decimal Dec96).toStr = c!"-12" ∧ ((Decimal.newFromStr c!"+1.50" : Decimal Dec96).tryMakeDecimal).2 = false ∧
    ((Decimal.newFromStr c!"1.50" : Decimal Dec96).tryMakeDecimal).1 = .left ⟨false, 150, 2⟩ := by decide

example : Event.shw 4 [] (.break_ (Break.new 100 (-5)) : Event Dec96) = some (some c!"2,76,-29") ∧
    ¬ TimeFits 4 (-2147483630) ∧ TimeFits 5 (-2147483630) := by
  refine ⟨by decide, ?_, ⟨-2147483630, by unfold OldTime; decide⟩⟩
  rintro ⟨n, hn⟩
  have := n.le_toInt
  unfold OldTime at hn
  simp at hn
  omega

example : ∃ (l : Str) (e' : Event Dec96), Event.shw 14 [] (.background ⟨0, c!"a b", none, []⟩ : Event Dec96) = some (some l) ∧ Events.parse 14 l = .ok [e'] ∧
    pathOf e' = some c!"\"a b\"" := by
  obtain ⟨l, e', h1, h2, h3, -⟩ := C03_read (D := Dec96) (v := 14) (e := .background ⟨0, c!"a b", none, []⟩) (f := c!"a b")
    ⟨by simp [PathWritableC, fieldC], trivial⟩ rfl rfl
  exact ⟨l, e', h1, h2, h3⟩
example : Event.shw 14 [] (.video (Video.new 5 c!"a b.avi" none) : Event Dec96) = some (some c!"1,5,\"a b.avi\"") ∧
    quotePath c!"a b.avi" = c!"\"a b.avi\"" := by decide

example : (Sprite.new c!"a.png" : Option (ObjectType Dec96)) = some (.sprite c!"a.png") ∧
    Event.shw 14 [] (.object ⟨.pass, .ofType .topRight, ⟨.ofI32 1, .ofI32 2⟩, .sprite c!"a.png", []⟩ : Event Dec96) =
      some (some c!"Sprite,Pass,3,a.png,1,2") := by decide

example : (parseEvent 14 c!"Animation,Pass,3,a.png,1,2,4,50" : Res EvErr (Event Dec96)) =
    .ok (.object ⟨.pass, .ofType .topRight, ⟨.ofI32 1, .ofI32 2⟩, .animation 4 ⟨false, 50, 0⟩ .default c!"a.png", []⟩) := by rfl

/-- A circle with a numeric text as its position. -/
def textCircle : HitObject Dec96 :=
  ⟨⟨.newFromStr c!"01", .newFromStr c!"x"⟩, .newFromStr c!"3.0", .hitCircle, true, ⟨2⟩, ⟨false, true, false, false⟩, none⟩

example : textCircle.shw 14 = some c!"01,x,3.0,37,2" ∧ HitObject.parse 14 c!"01,x,3.0,37,2" = .ok textCircle.made ∧ textCircle ≠ textCircle.made ∧
    (textCircle.made).position.x = .ofI32 1 := by decide

end

section
attribute [local instance] asciiUni

/-! The hypotheses of the theorems above. -/

example : ((Decimal.newFromStr c!"1.50" : Decimal Dec96).tryMakeDecimal).1 = .ofStr c!"1.50" := (C70_try_make nofun).1

example : ∃ l, Event.shw 4 [] (.break_ (Break.new 100 (-5)) : Event Dec96) = some (some l) :=
  (C70_break 4 100 (-5)).1.2 ⟨⟨76, by unfold OldTime; decide⟩, ⟨-29, by unfold OldTime; decide⟩⟩

example : Events.parse 14 c!"1,5,\"a b.avi\"" = .ok [(.video (Video.new 5 c!"\"a b.avi\"" none) : Event Dec96)] :=
  ((C70_video 14 5 c!"a b.avi" none).2 _ (by decide)).2 (by show PathWritableC false _; unfold PathWritableC; decide) trivial

example : ∃ l n, Event.shw 14 [] (.object ⟨.pass, .ofType .topRight, ⟨.ofStr c!"1", .ofStr c!"2"⟩, .sprite c!"a b.png", []⟩ : Event Dec96) =
      some (some l) ∧ originTypes[n]? = some .topRight ∧ (c!"Sprite," ++ Layer.shw .pass ++ [','] ++ natToStr n ++ [',']) <+: l ∧
      Events.parse 14 l = .ok [(.object ⟨.pass, .ofType .topRight, ⟨.ofStr c!"1", .ofStr c!"2"⟩, .sprite c!"\"a b.png\"", []⟩ : Event Dec96)] :=
  C70_sprite (f := c!"a b.png") .pass .topRight (by decide) (by show PathWritableC false _; unfold PathWritableC; decide)
    (decWritable_ofStr (D := Dec96) (f := fieldChar) (s := c!"1") (by decide))
    (decWritable_ofStr (D := Dec96) (f := fieldChar) (s := c!"2") (by decide))

example (e : Event Dec96) (h : parseEvent 14 c!"Animation,Pass,3,a.png,1,2,4,50" = .ok e) :
    ∃ og pos k delay, e = .object ⟨.pass, og, pos, .animation k delay .default c!"a.png", []⟩ :=
  C70_loop_default (la := .pass) (o := c!"3") (f := c!"a.png") (x := c!"1") (y := c!"2") (n := c!"4") (d := c!"50") h (by decide)

example : ∃ s, textCircle.shw 14 = some s ∧ HitObject.parse 14 s = .ok (hoBack 14 textCircle.made) :=
  C70_hit_object (by decide)
    ⟨(by decide : Dec96.Canon ⟨false, 1, 0⟩), ⟨by decide, by decide⟩,
      by
        show TimeWritable 14 (.left ⟨false, 30, 1⟩ : Decimal Dec96)
        simp only [TimeWritable]
        rw [if_neg (by decide)]
        exact (by decide : Dec96.Canon ⟨false, 30, 1⟩),
      by decide, trivial, nofun⟩
    (by rintro d (rfl | rfl | rfl) <;> exact ⟨by decide, nofun⟩)

end

end Osu
