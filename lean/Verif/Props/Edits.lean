/-
C71: a change of one thing changes only its text, and a change of one text only its thing.
-/
import Verif.Proof.Edits

namespace Osu
open Parser Ev

theorem filterMap_eq {α β : Type} {f g : α → Option β} {l : List α} (h : ∀ a ∈ l, f a = g a) : l.filterMap f = l.filterMap g := by
  induction l with
  | nil => rfl
  | cons a l ih =>
    rw [List.filterMap_cons, List.filterMap_cons, h a (by simp), ih fun b hb => h b (List.mem_cons_of_mem _ hb)]

section
variable {D : Type} [DecLib D] [UniLib]

theorem parse_osb_none {s : Str} {f : OsuFile D} (h : OsuFile.parse s = .ok f) : f.osb = none := by
  obtain ⟨_, _, _, _, _, _, -, -, -, -, hf⟩ := (C53_exact s f).1 h
  exact hf.2.1

/-! ## Sections of a file -/

/-- Two file values that differ at most in one section: their texts differ at most in the block of that section. The
second one is written exactly if that section can be. -/
theorem C71_write_section {n : SName} {f g : OsuFile D} (hfg : SameBut n f g) {s : Str} (h : f.shw = some s) :
    ∃ a b p, SectPrints f p n ∧ s = fileText (natToStr f.version) (a ++ blockOf n p ++ b) ∧
      (∀ x ∈ a ++ b, x.1 ≠ n.text) ∧
      ∀ t, g.shw = some t ↔ ∃ q, SectPrints g q n ∧ t = fileText (natToStr f.version) (a ++ blockOf n q ++ b) := by
  obtain ⟨p, hp, rfl⟩ := shw_iff.1 h
  obtain ⟨A, B, hAB, hA, hB⟩ : ∃ A B, SName.all = A ++ n :: B ∧ n ∉ A ∧ n ∉ B := by
    cases n
    · exact ⟨[], _, rfl, by decide, by decide⟩
    · exact ⟨[_], _, rfl, by decide, by decide⟩
    · exact ⟨[_, _], _, rfl, by decide, by decide⟩
    · exact ⟨[_, _, _], _, rfl, by decide, by decide⟩
    · exact ⟨[_, _, _, _], _, rfl, by decide, by decide⟩
    · exact ⟨[_, _, _, _, _], _, rfl, by decide, by decide⟩
    · exact ⟨[_, _, _, _, _, _], _, rfl, by decide, by decide⟩
    · exact ⟨[_, _, _, _, _, _, _], _, rfl, by decide, by decide⟩
  let k : (SName → Option Str) → SName → Option (Str × Str) := fun p m => (p m).map fun t => (m.text, t)
  have hl : ∀ p : SName → Option Str, listed p = A.filterMap (k p) ++ blockOf n (p n) ++ B.filterMap (k p) := by
    intro p
    unfold listed
    rw [hAB, List.filterMap_append, List.filterMap_cons, List.append_assoc]
    congr 1
    unfold blockOf
    cases p n <;> rfl
  have hsame : ∀ q : SName → Option Str, (∀ m, m ≠ n → q m = p m) → ∀ C : List SName, n ∉ C → C.filterMap (k q) = C.filterMap (k p) := by
    intro q hq C hC
    refine filterMap_eq fun m hm => ?_
    have : q m = p m := hq m (by rintro rfl; exact hC hm)
    simp only [k, this]
  refine ⟨A.filterMap (k p), B.filterMap (k p), p n, hp n, by rw [hl], ?_, fun t => ?_⟩
  · intro x hx e
    have : ∃ m ∈ A ++ B, k p m = some x := by
      rw [← List.filterMap_append] at hx
      exact List.mem_filterMap.1 hx
    obtain ⟨m, hm, hk⟩ := this
    obtain ⟨t, -, rfl⟩ := Option.map_eq_some_iff.1 hk
    have := SName.text_inj e
    subst this
    rcases List.mem_append.1 hm with hm | hm
    · exact hA hm
    · exact hB hm
  · rw [shw_iff, hfg.1]
    constructor
    · rintro ⟨q, hq, rfl⟩
      have e : ∀ m, m ≠ n → q m = p m := fun m hm => sectPrints_fun (hq m) (((hfg.2 m hm).prints hfg.1).1 (hp m))
      exact ⟨q n, hq n, by rw [hl, hsame q e A hA, hsame q e B hB]⟩
    · rintro ⟨q, hq, rfl⟩
      refine ⟨fun m => if m = n then q else p m, fun m => ?_, ?_⟩
      · by_cases hm : m = n
        · subst hm; simpa using hq
        · simpa [hm] using ((hfg.2 m hm).prints hfg.1).1 (hp m)
      · have e : ∀ m, m ≠ n → (fun m => if m = n then q else p m) m = p m := fun m hm => if_neg hm
        rw [hl, hsame _ e A hA, hsame _ e B hB, if_pos rfl]

/-- Two texts of the same version that differ in the content of one section (and in blank lines and comments): if the first
one is accepted, the second one is accepted exactly if that content is, and then the values differ at most in that
section. -/
theorem C71_read_section {s ws num r rest s' ws' num' r' rest' : Str} {pre pre' : List Str} {a b : List Sect} {x x' : Sect}
    (hv : Versioned s ws num r) (hl : Layout r pre (a ++ x :: b) rest)
    (hv' : Versioned s' ws' num' r') (hl' : Layout r' pre' (a ++ x' :: b) rest') (hp' : ∀ l ∈ pre', Ignorable l)
    (hx : x'.name = x.name) {f : OsuFile D} (h : OsuFile.parse s = .ok f) (hk' : KnownVersion num' f.version) {n : SName}
    (hn : n.text = x.name) (g : OsuFile D) :
    OsuFile.parse s' = .ok g ↔ SameBut n f g ∧ g.osb = none ∧ x'.body ≠ [] ∧ SectReads f.version g x'.body n := by
  obtain ⟨-, -, hf⟩ := parse_layout' hv hl h
  rw [parse_layout hv' hk' hl' hp', fileReads_replace hn hx hf]

/-! ## Lines after the end of a file -/

/-- Lines put after a file that ends with the hit objects are further hit objects: the file is accepted exactly if they
are, nothing else changes. -/
theorem C71_append_hit_objects {s t : Str} {f : OsuFile D} (h : OsuFile.parse s = .ok f) (hl : LastSection s c!"HitObjects")
    (hs : '\r' ∉ s) (hs2 : s.getLast? ≠ some '\n') (ht : '\r' ∉ t) (ht2 : t.getLast? ≠ some '\n') (hne : t ≠ [])
    (hb : ∀ l ∈ lines t, l.head? ≠ some '[') (g : OsuFile D) :
    OsuFile.parse (s ++ '\n' :: t) = .ok g ↔ ∃ l l', f.hitobjects = some l ∧ HitObjects.parse f.version t = .ok l' ∧
      g = { f with hitobjects := some (l ++ l') } := by
  obtain ⟨body, hc, ⟨l, hb1, hb2⟩, hg⟩ := append_last (n := .hitobjects) h hl hs hs2 ht ht2 hne hb
  have ho := (parse_osb_none h)
  rw [hg]
  show (_ ∧ _ ∧ ∃ y, HitObjects.parse f.version (body ++ '\n' :: t) = .ok y ∧ g.hitobjects = some y) ↔ _
  rw [C69_hit_objects f.version (fun e => hc (List.mem_of_getLast? e)) t, hb1]
  constructor
  · rintro ⟨⟨h1, h2⟩, h3, y, h4, h5⟩
    cases hp : (HitObjects.parse f.version t : Res (LErr HOErr) (List (HitObject D))) with
    | ok l' =>
      rw [hp] at h4
      cases h4
      exact ⟨l, l', hb2, rfl, sectSame_all (f := { f with hitobjects := some (l ++ l') }) h1 (h3.trans ho.symm) fun n => by
        by_cases hn : n = .hitobjects
        · subst hn; exact h5.symm
        · have := h2 n hn
          cases n <;> first | exact this | exact absurd rfl hn⟩
    | err e => rw [hp] at h4; cases h4
    | panic => rw [hp] at h4; cases h4
  · rintro ⟨m, l', h1, h2, rfl⟩
    rw [hb2] at h1
    cases h1
    refine ⟨⟨rfl, fun n hn => ?_⟩, ho, _, by rw [h2]; rfl, rfl⟩
    cases n
    case hitobjects => exact absurd rfl hn
    all_goals rfl

/-- The same for timing points. -/
theorem C71_append_timing_points {s t : Str} {f : OsuFile D} (h : OsuFile.parse s = .ok f) (hl : LastSection s c!"TimingPoints")
    (hs : '\r' ∉ s) (hs2 : s.getLast? ≠ some '\n') (ht : '\r' ∉ t) (ht2 : t.getLast? ≠ some '\n') (hne : t ≠ [])
    (hb : ∀ l ∈ lines t, l.head? ≠ some '[') (g : OsuFile D) :
    OsuFile.parse (s ++ '\n' :: t) = .ok g ↔ ∃ l l', f.timingPoints = some l ∧ TimingPoints.parse f.version t = .ok l' ∧
      g = { f with timingPoints := some (l ++ l') } := by
  obtain ⟨body, hc, ⟨l, hb1, hb2⟩, hg⟩ := append_last (n := .timingPoints) h hl hs hs2 ht ht2 hne hb
  have ho := (parse_osb_none h)
  rw [hg]
  show (_ ∧ _ ∧ ∃ y, TimingPoints.parse f.version (body ++ '\n' :: t) = .ok y ∧ g.timingPoints = some y) ↔ _
  rw [C69_timing_points f.version (fun e => hc (List.mem_of_getLast? e)) t, hb1]
  constructor
  · rintro ⟨⟨h1, h2⟩, h3, y, h4, h5⟩
    cases hp : (TimingPoints.parse f.version t : Res (LErr TPErr) (List (TimingPoint D))) with
    | ok l' =>
      rw [hp] at h4
      cases h4
      exact ⟨l, l', hb2, rfl, sectSame_all (f := { f with timingPoints := some (l ++ l') }) h1 (h3.trans ho.symm) fun n => by
        by_cases hn : n = .timingPoints
        · subst hn; exact h5.symm
        · have := h2 n hn
          cases n <;> first | exact this | exact absurd rfl hn⟩
    | err e => rw [hp] at h4; cases h4
    | panic => rw [hp] at h4; cases h4
  · rintro ⟨m, l', h1, h2, rfl⟩
    rw [hb2] at h1
    cases h1
    refine ⟨⟨rfl, fun n hn => ?_⟩, ho, _, by rw [h2]; rfl, rfl⟩
    cases n
    case timingPoints => exact absurd rfl hn
    all_goals rfl

/-- The same for events, if the first of the lines is not indented. -/
theorem C71_append_events {s t : Str} {f : OsuFile D} (h : OsuFile.parse s = .ok f) (hl : LastSection s c!"Events")
    (hs : '\r' ∉ s) (hs2 : s.getLast? ≠ some '\n') (ht : '\r' ∉ t) (ht2 : t.getLast? ≠ some '\n') (hne : t ≠ []) (hfl : Flush t)
    (hb : ∀ l ∈ lines t, l.head? ≠ some '[') (g : OsuFile D) :
    OsuFile.parse (s ++ '\n' :: t) = .ok g ↔ ∃ l l', f.events = some l ∧ Events.parse f.version t = .ok l' ∧
      g = { f with events := some (l ++ l') } := by
  obtain ⟨body, hc, ⟨l, hb1, hb2⟩, hg⟩ := append_last (n := .events) h hl hs hs2 ht ht2 hne hb
  have ho := (parse_osb_none h)
  rw [hg]
  show (_ ∧ _ ∧ ∃ y, Events.parse f.version (body ++ '\n' :: t) = .ok y ∧ g.events = some y) ↔ _
  rw [C69_events f.version (fun e => hc (List.mem_of_getLast? e)) hfl, hb1]
  constructor
  · rintro ⟨⟨h1, h2⟩, h3, y, h4, h5⟩
    cases hp : (Events.parse f.version t : Res (LErr EvErr) (List (Event D))) with
    | ok l' =>
      rw [hp] at h4
      cases h4
      exact ⟨l, l', hb2, rfl, sectSame_all (f := { f with events := some (l ++ l') }) h1 (h3.trans ho.symm) fun n => by
        by_cases hn : n = .events
        · subst hn; exact h5.symm
        · have := h2 n hn
          cases n <;> first | exact this | exact absurd rfl hn⟩
    | err e => rw [hp] at h4; cases h4
    | panic => rw [hp] at h4; cases h4
  · rintro ⟨m, l', h1, h2, rfl⟩
    rw [hb2] at h1
    cases h1
    refine ⟨⟨rfl, fun n hn => ?_⟩, ho, _, by rw [h2]; rfl, rfl⟩
    cases n
    case events => exact absurd rfl hn
    all_goals rfl

end

/-! ## Lines of a section -/

theorem printLinesP_mid {α : Type} {shw : α → Option Str} {a b : List α} {x : α} {s : Str} (h : printLinesP shw (a ++ x :: b) = some s) :
    ∃ as t bs, as.length = a.length ∧ bs.length = b.length ∧ shw x = some t ∧ s = join ['\n'] (as ++ t :: bs) ∧
      ∀ y u, printLinesP shw (a ++ y :: b) = some u ↔ ∃ t', shw y = some t' ∧ u = join ['\n'] (as ++ t' :: bs) := by
  unfold printLinesP at h ⊢
  have hlen : ∀ {l : List α} {r : List Str}, l.mapM shw = some r → r.length = l.length := by
    intro l
    induction l with
    | nil => intro r h; cases h; rfl
    | cons z l ih =>
      intro r h
      rw [List.mapM_cons] at h
      obtain ⟨t, -, h⟩ := Option.bind_eq_some_iff.1 h
      obtain ⟨r', h1, h2⟩ := Option.bind_eq_some_iff.1 h
      cases h2
      simp [ih h1]
  obtain ⟨ls, h1, rfl⟩ := Option.map_eq_some_iff.1 h
  rw [List.mapM_append] at h1
  obtain ⟨as, ha, h1⟩ := Option.bind_eq_some_iff.1 h1
  obtain ⟨ts, ht, h1⟩ := Option.bind_eq_some_iff.1 h1
  cases h1
  rw [List.mapM_cons] at ht
  obtain ⟨t, hx, ht⟩ := Option.bind_eq_some_iff.1 ht
  obtain ⟨bs, hbs, ht⟩ := Option.bind_eq_some_iff.1 ht
  cases ht
  refine ⟨as, t, bs, hlen ha, hlen hbs, hx, rfl, fun y u => ?_⟩
  rw [List.mapM_append, ha, List.mapM_cons, hbs]
  cases hy : shw y with
  | none => simp
  | some t' => simp [eq_comm]

section
variable {D : Type} [DecLib D]

/-- Another timing point in the place of one changes only the line of that one. -/
theorem C71_line_timing_points {v : Nat} {a b : List (TimingPoint D)} {x : TimingPoint D} {s : Str}
    (h : TimingPoints.shw v (a ++ x :: b) = some s) :
    ∃ as t bs, as.length = a.length ∧ bs.length = b.length ∧ x.shw v = some t ∧ s = join ['\n'] (as ++ t :: bs) ∧
      ∀ y u, TimingPoints.shw v (a ++ y :: b) = some u ↔ ∃ t', y.shw v = some t' ∧ u = join ['\n'] (as ++ t' :: bs) :=
  printLinesP_mid (shw := TimingPoint.shw v) h

/-- The same for hit objects. -/
theorem C71_line_hit_objects {v : Nat} {a b : List (HitObject D)} {x : HitObject D} {s : Str}
    (h : HitObjects.shw v (a ++ x :: b) = some s) :
    ∃ as t bs, as.length = a.length ∧ bs.length = b.length ∧ x.shw v = some t ∧ s = join ['\n'] (as ++ t :: bs) ∧
      ∀ y u, HitObjects.shw v (a ++ y :: b) = some u ↔ ∃ t', y.shw v = some t' ∧ u = join ['\n'] (as ++ t' :: bs) :=
  printLinesP_mid (shw := HitObject.shw v) h

/-- The same for colours, in the versions that have them. -/
theorem C71_line_colours {v : Nat} (hv : 5 ≤ v) (a b : List Colour) (x : Colour) :
    Colours.shw v (a ++ x :: b) = some (join ['\n'] (a.map Colour.shw ++ x.shw :: b.map Colour.shw)) := by
  unfold Colours.shw printLines
  rw [if_neg (by omega)]
  simp

/-- Two values of a section of fields that differ at most in one of them: their texts differ at most in its line. -/
def FieldLocal (S : Schema) : Prop :=
  ∀ (v : Nat) (f g : S.Section) (k : S.Key), (∀ j, j ≠ k → g j = f j) →
    ∃ as bs p q, S.toStr v f = join ['\n'] (as ++ Option.toList p ++ bs) ∧ S.toStr v g = join ['\n'] (as ++ Option.toList q ++ bs) ∧
      (f k = none → p = none) ∧ (g k = none → q = none) ∧
      (∀ l, p = some l ∨ q = some l → ∃ t, l = S.name k ++ ':' :: t) ∧ ∀ l ∈ as ++ bs, ∀ t, l ≠ S.name k ++ ':' :: t

omit [DecLib D] in
theorem toStr_field {S : Schema} (hS : S.Lawful) : FieldLocal S := by
  intro v f g k h
  obtain ⟨A, B, hAB⟩ := List.append_of_mem (hS.all k)
  have hk := hS.nodup
  rw [hAB] at hk
  have hn := (List.nodup_cons.1 (List.perm_middle.nodup_iff.1 hk)).1
  have key : ∀ C : List S.Key, k ∉ C → C.filterMap (S.fieldStr v g) = C.filterMap (S.fieldStr v f) := by
    intro C hC
    refine filterMap_eq fun j hj => ?_
    unfold Schema.fieldStr
    rw [h j (by rintro rfl; exact hC hj)]
  have e : ∀ q : S.Section, S.toStr v q = join ['\n'] (A.filterMap (S.fieldStr v q) ++ (S.fieldStr v q k).toList ++ B.filterMap (S.fieldStr v q)) := by
    intro q
    unfold Schema.toStr
    rw [hAB, List.filterMap_append, List.filterMap_cons, List.append_assoc]
    cases S.fieldStr v q k <;> rfl
  have hl : ∀ (q : S.Section) (j : S.Key) (l : Str), S.fieldStr v q j = some l → ∃ t, l = S.name j ++ ':' :: t := by
    intro q j l hl
    unfold Schema.fieldStr at hl
    split at hl
    · cases hl
    · split at hl
      · cases hl
      · cases hl
        exact ⟨_, by simp only [List.append_assoc, List.singleton_append]; rfl⟩
  refine ⟨_, _, _, S.fieldStr v g k, e f, ?_, ?_, ?_, ?_, ?_⟩
  · rw [e g, key A fun hm => hn (List.mem_append_left _ hm), key B fun hm => hn (List.mem_append_right _ hm)]
  · intro hf; unfold Schema.fieldStr; rw [hf]
  · intro hf; unfold Schema.fieldStr; rw [hf]
  · rintro l (h | h)
    · exact hl f k l h
    · exact hl g k l h
  · intro l hm t e
    rw [← List.filterMap_append] at hm
    obtain ⟨j, hj, hm⟩ := List.mem_filterMap.1 hm
    obtain ⟨u, rfl⟩ := hl f j l hm
    have hno : ∀ j : S.Key, ':' ∉ S.name j := fun j hc => by
      have := hS.nameOK j ':' hc
      simp at this
    have : S.name j = S.name k := by
      have h1 : ∀ (a b : Str), ':' ∉ a → (a ++ ':' :: b).takeWhile (· != ':') = a := by
        intro a b ha
        induction a with
        | nil => simp
        | cons c a ih =>
          have hc : c ≠ ':' := fun e => ha (by simp [e])
          simp [hc, ih fun hm => ha (List.mem_cons_of_mem _ hm)]
      have h2 := congrArg (List.takeWhile (· != ':')) e
      rwa [h1 _ _ (hno j), h1 _ _ (hno k)] at h2
    have := hS.inj _ _ this
    subst this
    exact hn hj

/-- Another value of one field changes only the line of that field. -/
theorem C71_line_field : FieldLocal (General D) ∧ FieldLocal (Editor D) ∧ FieldLocal Metadata ∧ FieldLocal (Difficulty D) :=
  ⟨toStr_field (General_lawful D), toStr_field (Editor_lawful D), toStr_field Metadata_lawful, toStr_field (Difficulty_lawful D)⟩

end

/-! ## Examples -/

section
attribute [local instance] asciiUni

private def edF : OsuFile Dec96 := { OsuFile.new 14 with colours := some [.combo 1 ⟨1, 2, 3⟩, .sliderBorder ⟨4, 5, 6⟩] }

/-- The text of a file before and after a colour is exchanged. -/
example : edF.shw = some c!"osu file format v14\n\n[Colours]\nCombo1 : 1,2,3\nSliderBorder : 4,5,6" ∧
    SameBut .colours edF { edF with colours := some [.combo 1 ⟨1, 2, 3⟩, .sliderTrackOverride ⟨4, 5, 6⟩] } ∧
    ({ edF with colours := some [.combo 1 ⟨1, 2, 3⟩, .sliderTrackOverride ⟨4, 5, 6⟩] } : OsuFile Dec96).shw =
      some c!"osu file format v14\n\n[Colours]\nCombo1 : 1,2,3\nSliderTrackOverride : 4,5,6" := by
  refine ⟨by decide, ⟨rfl, fun m hm => ?_⟩, by decide⟩
  cases m <;> first | rfl | exact absurd rfl hm

private def edS : Str := c!"osu file format v14\n\n[Colours]\nCombo1 : 1,2,3\n\n[HitObjects]\n1,2,3,1,0"

private theorem edS_last : LastSection edS c!"HitObjects" := by
  refine ⟨[], c!"14", c!"\n\n[Colours]\nCombo1 : 1,2,3\n\n[HitObjects]\n1,2,3,1,0", [[], []],
    [⟨[], c!"Colours", ['\n'], c!"Combo1 : 1,2,3\n"⟩], ⟨['\n'], c!"HitObjects", ['\n'], c!"1,2,3,1,0"⟩,
    ⟨⟨[], .inl rfl, rfl⟩, nofun, by decide, by decide, .inr ⟨_, .inr rfl⟩⟩, layout_iff.2 ⟨by decide, ?_⟩, rfl⟩
  exact sections_iff.1 (by decide)

/-- A hit object put after a file. -/
example : ∃ f g : OsuFile Dec96, OsuFile.parse edS = .ok f ∧ OsuFile.parse (edS ++ '\n' :: c!"4,5,6,1,0") = .ok g ∧
    ∃ l x, f.hitobjects = some l ∧ g = { f with hitobjects := some (l ++ [x]) } := by
  obtain ⟨f, hf⟩ := Res.of_isOk (r := (OsuFile.parse edS : Res _ (OsuFile Dec96))) (by decide)
  obtain ⟨l, hl⟩ : ∃ l, f.hitobjects = some l := by
    have : (OsuFile.parse edS >>= fun f : OsuFile Dec96 => Res.ok f.hitobjects.isSome : Res _ Bool) = .ok true := by decide
    rw [hf] at this
    exact Option.isSome_iff_exists.1 (Res.ok.inj this)
  have hv : f.version = 14 := by
    have : (OsuFile.parse edS >>= fun f : OsuFile Dec96 => Res.ok f.version : Res _ Nat) = .ok 14 := by decide
    rw [hf] at this
    exact Res.ok.inj this
  have := C71_append_hit_objects (t := c!"4,5,6,1,0") hf edS_last (by decide) (by decide) (by decide) (by decide) (by decide) (by decide)
  obtain ⟨x, hx⟩ : ∃ x : HitObject Dec96, HitObjects.parse f.version c!"4,5,6,1,0" = .ok [x] :=
    ⟨⟨⟨.left ⟨false, 4, 0⟩, .left ⟨false, 5, 0⟩⟩, .left ⟨false, 6, 0⟩, .hitCircle, false, ⟨0⟩, ⟨false, false, false, false⟩, none⟩,
      by rw [hv]; decide⟩
  exact ⟨f, _, hf, (this _).2 ⟨l, [x], hl, hx, rfl⟩, l, x, hl, rfl⟩

/-- A line that looks like the header of a section is not a hit object. -/
example : (OsuFile.parse (edS ++ '\n' :: c!"[4,5,6,1,0") : Res _ (OsuFile Dec96)).isOk = true ∧
    (HitObjects.parse 14 c!"[4,5,6,1,0" : Res _ (List (HitObject Dec96))).isOk = true := ⟨by decide, by decide⟩

end

section
attribute [local instance] asciiUni

private theorem edF_same : SameBut .colours edF { edF with colours := some [.combo 1 ⟨1, 2, 3⟩, .sliderTrackOverride ⟨4, 5, 6⟩] } := by
  refine ⟨rfl, fun m hm => ?_⟩
  cases m <;> first | rfl | exact absurd rfl hm

example : ∃ a b p, SectPrints edF p .colours ∧ c!"osu file format v14\n\n[Colours]\nCombo1 : 1,2,3\nSliderBorder : 4,5,6" =
    fileText (natToStr 14) (a ++ blockOf .colours p ++ b) :=
  have ⟨a, b, p, h1, h2, _⟩ := C71_write_section edF_same (s := c!"osu file format v14\n\n[Colours]\nCombo1 : 1,2,3\nSliderBorder : 4,5,6") (by decide)
  ⟨a, b, p, h1, h2⟩

/-- The colour of the file above is given another value in its text. -/
example (f g : OsuFile Dec96) (h : OsuFile.parse edS = .ok f)
    (hg : OsuFile.parse c!"osu file format v14\n\n[Colours]\nCombo1 : 7,7,7\n\n[HitObjects]\n1,2,3,1,0" = .ok g) : SameBut .colours f g := by
  have hv : f.version = 14 := by
    have : (OsuFile.parse edS >>= fun f : OsuFile Dec96 => Res.ok f.version : Res _ Nat) = .ok 14 := by decide
    rw [h] at this
    exact Res.ok.inj this
  have := C71_read_section (s := edS) (s' := c!"osu file format v14\n\n[Colours]\nCombo1 : 7,7,7\n\n[HitObjects]\n1,2,3,1,0")
    (ws := []) (num := c!"14") (r := c!"\n\n[Colours]\nCombo1 : 1,2,3\n\n[HitObjects]\n1,2,3,1,0") (rest := []) (ws' := []) (num' := c!"14")
    (r' := c!"\n\n[Colours]\nCombo1 : 7,7,7\n\n[HitObjects]\n1,2,3,1,0") (rest' := []) (pre := [[], []]) (pre' := [[], []]) (a := [])
    (b := [⟨['\n'], c!"HitObjects", ['\n'], c!"1,2,3,1,0"⟩]) (x := ⟨[], c!"Colours", ['\n'], c!"Combo1 : 1,2,3\n"⟩)
    (x' := ⟨[], c!"Colours", ['\n'], c!"Combo1 : 7,7,7\n"⟩)
    ⟨⟨[], .inl rfl, rfl⟩, nofun, by decide, by decide, .inr ⟨_, .inr rfl⟩⟩ (layout_iff.2 ⟨by decide, sections_iff.1 (by decide)⟩)
    ⟨⟨[], .inl rfl, rfl⟩, nofun, by decide, by decide, .inr ⟨_, .inr rfl⟩⟩ (layout_iff.2 ⟨by decide, sections_iff.1 (by decide)⟩)
    (by
      intro l hl
      have : l = [] := by simpa using hl
      exact .inl (by rw [this]; rfl))
    rfl h (by rw [hv]; exact known_14) (n := .colours) rfl g
  exact (this.1 hg).1

private def edT : Str := c!"osu file format v14\n\n[TimingPoints]\n0,500,4,1,1,100,1,0"
private def edE : Str := c!"osu file format v14\n\n[Events]\n0,0,a.png"

private theorem edT_last : LastSection edT c!"TimingPoints" := by
  refine ⟨[], c!"14", c!"\n\n[TimingPoints]\n0,500,4,1,1,100,1,0", [[], []],
    [], ⟨[], c!"TimingPoints", ['\n'], c!"0,500,4,1,1,100,1,0"⟩,
    ⟨⟨[], .inl rfl, rfl⟩, nofun, by decide, by decide, .inr ⟨_, .inr rfl⟩⟩, layout_iff.2 ⟨by decide, ?_⟩, rfl⟩
  exact sections_iff.1 (by decide)

private theorem edE_last : LastSection edE c!"Events" := by
  refine ⟨[], c!"14", c!"\n\n[Events]\n0,0,a.png", [[], []],
    [], ⟨[], c!"Events", ['\n'], c!"0,0,a.png"⟩,
    ⟨⟨[], .inl rfl, rfl⟩, nofun, by decide, by decide, .inr ⟨_, .inr rfl⟩⟩, layout_iff.2 ⟨by decide, ?_⟩, rfl⟩
  exact sections_iff.1 (by decide)

example (f g : OsuFile Dec96) (h : OsuFile.parse edT = .ok f) : OsuFile.parse (edT ++ '\n' :: c!"9,-50,4,1,1,100,0,0") = .ok g ↔
    ∃ l l', f.timingPoints = some l ∧ TimingPoints.parse f.version c!"9,-50,4,1,1,100,0,0" = .ok l' ∧
      g = { f with timingPoints := some (l ++ l') } :=
  C71_append_timing_points h edT_last (by decide) (by decide) (by decide) (by decide) (by decide) (by decide) g

example (f g : OsuFile Dec96) (h : OsuFile.parse edE = .ok f) : OsuFile.parse (edE ++ '\n' :: c!"2,1,2") = .ok g ↔
    ∃ l l', f.events = some l ∧ Events.parse f.version c!"2,1,2" = .ok l' ∧ g = { f with events := some (l ++ l') } :=
  C71_append_events h edE_last (by decide) (by decide) (by decide) (by decide) (by decide)
    (by
      intro pre l post h hp hl
      have e : lines c!"2,1,2" = [c!"2,1,2"] := by decide
      rw [e] at h
      match pre, h with
      | [], h => cases h; decide
      | _ :: _, h => simp at h)
    (by decide) g

example : (OsuFile.parse edT : Res _ (OsuFile Dec96)).isOk = true ∧ (OsuFile.parse edE : Res _ (OsuFile Dec96)).isOk = true ∧
    (TimingPoints.parse 14 c!"9,-50,4,1,1,100,0,0" : Res _ (List (TimingPoint Dec96))).isOk = true ∧
    (Events.parse 14 c!"2,1,2" : Res _ (List (Event Dec96))).isOk = true := by decide

/-- The second of two timing points, and the only hit object, exchanged. -/
example : ∃ as t bs, as.length = 1 ∧ bs.length = 0 ∧ tpExample.shw 14 = some t ∧
    c!"1500,-5.0,4,9,2,70,0,9\n1500,-5.0,4,9,2,70,0,9" = join ['\n'] (as ++ t :: bs) :=
  have ⟨as, t, bs, h1, h2, h3, h4, _⟩ := C71_line_timing_points (v := 14) (a := [tpExample]) (x := tpExample) (b := [])
    (s := c!"1500,-5.0,4,9,2,70,0,9\n1500,-5.0,4,9,2,70,0,9") (by decide)
  ⟨as, t, bs, h1, h2, h3, h4⟩
example (s : Str) (h : HitObjects.shw 14 [hoSlider, hoCircle] = some s) : ∃ as t bs, as.length = 1 ∧ bs.length = 0 ∧ hoCircle.shw 14 = some t ∧
    s = join ['\n'] (as ++ t :: bs) :=
  have ⟨as, t, bs, h1, h2, h3, h4, _⟩ := C71_line_hit_objects (v := 14) (a := [hoSlider]) (x := hoCircle) (b := []) h
  ⟨as, t, bs, h1, h2, h3, h4⟩
example : Colours.shw 14 ([.combo 1 ⟨1, 2, 3⟩] ++ .sliderBorder ⟨4, 5, 6⟩ :: []) =
    some (join ['\n'] ([Colour.combo 1 ⟨1, 2, 3⟩].map Colour.shw ++ (Colour.sliderBorder ⟨4, 5, 6⟩).shw :: [].map Colour.shw)) :=
  C71_line_colours (by decide) _ _ _

end

end Osu
