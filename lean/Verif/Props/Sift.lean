/-
C100: lines of a text taken out, repeated or put in another order.
-/
import Verif.Proof.Sift
import Verif.Props.Edits

namespace Osu
open SB Ev Parser

section
variable {D : Type} [DecLib D]

/-- C100: a text made of lines of an accepted text, in any order, each any number of times, is accepted; it gives only things of the first
text, in the same order if the lines are, and as many of each if the lines are only put in another order. -/
theorem C100_lines (v : Nat) {s t : Str} (ht : inked t ⊆ inked s) :
    (∀ xs : List (TimingPoint D), TimingPoints.parse v s = .ok xs → ∃ ys, TimingPoints.parse v t = .ok ys ∧ Sifted s t xs ys) ∧
    (∀ xs : List (HitObject D), HitObjects.parse v s = .ok xs → ∃ ys, HitObjects.parse v t = .ok ys ∧ Sifted s t xs ys) ∧
    (∀ xs, Colours.parse v s = .ok (some xs) → ∃ ys, Colours.parse v t = .ok (some ys) ∧ Sifted s t xs ys) := by
  refine ⟨fun xs h => parseLines_sift h ht, fun xs h => parseLines_sift h ht, fun xs h => ?_⟩
  unfold Colours.parse at h ⊢
  split at h
  · cases h
  · rename_i hv
    cases hp : parseLines Colour.parse s with
    | ok l' =>
      rw [hp] at h
      cases h
      obtain ⟨l1, h1, h2⟩ := parseLines_sift hp ht
      exact ⟨l1, by rw [if_neg hv, h1]; rfl, h2⟩
    | err e => rw [hp] at h; cases h
    | panic => rw [hp] at h; cases h

/-- C100: a text made of entries of an accepted text of keys and values, in any order and with any breaks and blanks around them, but none
with a key twice, is accepted; it gives fields of the first text, and all of them if no entry is left out. -/
theorem C100_fields (v : Nat) {s t : Str} {es es' : List (KVLine × Str)} {r r' : Str} (hs : KVSplits s es r) (ht : KVSplits t es' r')
    (hr : Blank r') (hn : (es'.map fun e => e.1.key).Nodup) (hm : ∀ e ∈ es', ∃ e' ∈ es, e'.1 = e.1) :
    (∀ f, (General D).fromStr v s = .ok f → ∃ g, (General D).fromStr v t = .ok g ∧ FieldsPart g f ∧
      ((∀ e ∈ es, ∃ e' ∈ es', e'.1 = e.1) → g = f)) ∧
    (∀ f, (Editor D).fromStr v s = .ok f → ∃ g, (Editor D).fromStr v t = .ok g ∧ FieldsPart g f ∧
      ((∀ e ∈ es, ∃ e' ∈ es', e'.1 = e.1) → g = f)) ∧
    (∀ f, Metadata.fromStr v s = .ok f → ∃ g, Metadata.fromStr v t = .ok g ∧ FieldsPart g f ∧
      ((∀ e ∈ es, ∃ e' ∈ es', e'.1 = e.1) → g = f)) ∧
    (∀ f, (Difficulty D).fromStr v s = .ok f → ∃ g, (Difficulty D).fromStr v t = .ok g ∧ FieldsPart g f ∧
      ((∀ e ∈ es, ∃ e' ∈ es', e'.1 = e.1) → g = f)) :=
  ⟨fun _ h => schema_sift (General_lawful D) h hs ht hr hn hm, fun _ h => schema_sift (Editor_lawful D) h hs ht hr hn hm,
    fun _ h => schema_sift Metadata_lawful h hs ht hr hn hm, fun _ h => schema_sift (Difficulty_lawful D) h hs ht hr hn hm⟩

variable [UniLib]

/-- C100: a text of events that is put together from parts, none of which begins with an indented line, is accepted exactly if each part
is, and gives the events of the parts one after the other. -/
theorem C100_parts (v : Nat) (vars : List Variable) (bs : List Str) (es : List (Event D)) (hb : ∀ b ∈ bs, NoEndCR b ∧ Flush b) :
    Events.parseVars v vars (join ['\n'] bs) = .ok es ↔
      ∃ ps : List (List (Event D)), bs.map (Events.parseVars v vars) = ps.map .ok ∧ es = ps.flatten := blocks_iff v vars bs es hb

/-- C100: so with such parts taken out, repeated or put in another order it is accepted, and gives events of the first text, in the same
order if the parts are, and as many of each if the parts are only put in another order. -/
theorem C100_events (v : Nat) (vars : List Variable) {bs cs : List Str} (es : List (Event D)) (hb : ∀ b ∈ bs, NoEndCR b ∧ Flush b)
    (hc : cs ⊆ bs) (h : Events.parseVars v vars (join ['\n'] bs) = .ok es) :
    ∃ es1 : List (Event D), Events.parseVars v vars (join ['\n'] cs) = .ok es1 ∧ es1 ⊆ es ∧ (cs.Sublist bs → es1.Sublist es) ∧
      (cs.Perm bs → es1.Perm es) := by
  obtain ⟨ps, h1, rfl⟩ := (blocks_iff v vars bs es hb).1 h
  obtain ⟨qs, h2, h3⟩ := accepted_vals fun b hb' => accepted_all h1 b (hc hb')
  refine ⟨qs.flatten, (blocks_iff v vars cs _ fun b hb' => hb b (hc hb')).2 ⟨qs, h2, rfl⟩, fun e he => ?_, fun hs => ?_, fun hp => ?_⟩
  · obtain ⟨q, hq, he⟩ := List.mem_flatten.1 he
    exact List.mem_flatten.2 ⟨q, h3 hq, he⟩
  · rw [← vals_eq h1, ← vals_eq h2]; exact flatten_sublist (hs.filterMap _)
  · rw [← vals_eq h1, ← vals_eq h2]; exact (hp.filterMap _).flatten

/-- C100: with events and commands taken out of an accepted text, each together with the deeper lines that follow it, it is accepted. In
both texts each line that is not blank gives one event or one command, and a line that is left gives the same as before, at the same depth. -/
theorem C100_pruned (v : Nat) (vars : List Variable) {s t : Str} (es : List (Event D)) (h : Events.parseVars v vars s = .ok es)
    (ht : Pruned indentOf (inked s) (inked t)) :
    ∃ es1 : List (Event D), Events.parseVars v vars t = .ok es1 ∧ (inked t).length = (evRows es1).length ∧ (inked s).length = (evRows es).length ∧
      ((inked t).zip (evRows es1)).Sublist ((inked s).zip (evRows es)) := events_pruned h ht

/-- C100: so in a file. Two texts of files that differ in the content of one section, where the second content, not empty, is made of lines of
the first: if the first file is accepted, so is the second, and only that section is another. -/
theorem C100_file {s ws num r rest s' ws' num' r' rest' : Str} {pre pre' : List Str} {a b : List Sect} {x x' : Sect}
    (hv : Versioned s ws num r) (hl : Layout r pre (a ++ x :: b) rest)
    (hv' : Versioned s' ws' num' r') (hl' : Layout r' pre' (a ++ x' :: b) rest') (hp' : ∀ l ∈ pre', Ignorable l)
    (hx : x'.name = x.name) {f : OsuFile D} (h : OsuFile.parse s = .ok f) (hk' : KnownVersion num' f.version) (hne : x'.body ≠ []) :
    (x.name = c!"TimingPoints" → inked x'.body ⊆ inked x.body → ∃ xs ys, f.timingPoints = some xs ∧
      OsuFile.parse s' = .ok { f with timingPoints := some ys } ∧ Sifted x.body x'.body xs ys) ∧
    (x.name = c!"HitObjects" → inked x'.body ⊆ inked x.body → ∃ xs ys, f.hitobjects = some xs ∧
      OsuFile.parse s' = .ok { f with hitobjects := some ys } ∧ Sifted x.body x'.body xs ys) ∧
    (x.name = c!"Colours" → 5 ≤ f.version → inked x'.body ⊆ inked x.body → ∃ xs ys, f.colours = some xs ∧
      OsuFile.parse s' = .ok { f with colours := some ys } ∧ Sifted x.body x'.body xs ys) ∧
    (x.name = c!"Events" → Pruned indentOf (inked x.body) (inked x'.body) → ∃ es es1, f.events = some es ∧
      OsuFile.parse s' = .ok { f with events := some es1 } ∧
      ((inked x'.body).zip (evRows es1)).Sublist ((inked x.body).zip (evRows es))) := by
  obtain ⟨-, -, hf⟩ := parse_layout' hv hl h
  have ho := hf.2.1
  obtain ⟨-, m, hm, hr⟩ := hf.2.2.2.1 x (by simp)
  have key := fun {n : SName} (hn : n.text = x.name) (g : OsuFile D) => C71_read_section hv hl hv' hl' hp' hx h hk' hn g
  have same : ∀ {n : SName}, n.text = x.name → m = n := fun hn => SName.text_inj (hm.trans hn.symm)
  refine ⟨fun hn ht => ?_, fun hn ht => ?_, fun hn h5 ht => ?_, fun hn ht => ?_⟩
  · cases same (n := .timingPoints) hn.symm
    obtain ⟨xs, h1, h2⟩ := hr
    obtain ⟨ys, h3, h4⟩ := (C100_lines f.version ht).1 xs h1
    refine ⟨xs, ys, h2, (key hm _).2 ⟨⟨rfl, fun k hk => ?_⟩, ho, hne, ys, h3, rfl⟩, h4⟩
    cases k <;> first | rfl | exact absurd rfl hk
  · cases same (n := .hitobjects) hn.symm
    obtain ⟨xs, h1, h2⟩ := hr
    obtain ⟨ys, h3, h4⟩ := (C100_lines f.version ht).2.1 xs h1
    refine ⟨xs, ys, h2, (key hm _).2 ⟨⟨rfl, fun k hk => ?_⟩, ho, hne, ys, h3, rfl⟩, h4⟩
    cases k <;> first | rfl | exact absurd rfl hk
  · cases same (n := .colours) hn.symm
    obtain ⟨o, h1, h2⟩ := hr
    have : ∃ xs, o = some xs := by
      unfold Colours.parse at h1
      rw [if_neg (by omega)] at h1
      cases hp : parseLines Colour.parse x.body with
      | ok l => rw [hp] at h1; cases h1; exact ⟨l, rfl⟩
      | err e => rw [hp] at h1; cases h1
      | panic => rw [hp] at h1; cases h1
    obtain ⟨xs, rfl⟩ := this
    obtain ⟨ys, h3, h4⟩ := (C100_lines (D := D) f.version ht).2.2 xs h1
    refine ⟨xs, ys, h2, (key hm _).2 ⟨⟨rfl, fun k hk => ?_⟩, ho, hne, _, h3, rfl⟩, h4⟩
    cases k <;> first | rfl | exact absurd rfl hk
  · cases same (n := .events) hn.symm
    obtain ⟨es, h1, h2⟩ := hr
    obtain ⟨es1, h3, -, -, h4⟩ := C100_pruned f.version [] es h1 ht
    refine ⟨es, es1, h2, (key hm _).2 ⟨⟨rfl, fun k hk => ?_⟩, ho, hne, es1, h3, rfl⟩, h4⟩
    cases k <;> first | rfl | exact absurd rfl hk

end

/-! ### Cases -/

section
attribute [local instance] asciiUni

/-- The second line goes before the first, twice, and the third is taken out. -/
example : ∃ ys : List (HitObject Dec96), HitObjects.parse 14 c!"4,5,6,1,0\n\n4,5,6,1,0\n1,2,3,1,0" = .ok ys ∧ ys.length = 3 ∧
    ∃ xs : List (HitObject Dec96), HitObjects.parse 14 c!"1,2,3,1,0\n4,5,6,1,0\n7,8,9,1,0" = .ok xs ∧ ys ⊆ xs := by
  obtain ⟨ys, h1, h2⟩ := (C100_lines (D := Dec96) 14 (s := c!"1,2,3,1,0\n4,5,6,1,0\n7,8,9,1,0") (t := c!"4,5,6,1,0\n\n4,5,6,1,0\n1,2,3,1,0")
    (by decide)).2.1 _ (by rfl)
  refine ⟨ys, h1, ?_, _, by rfl, h2.1⟩
  cases h1
  rfl

/-- Taken out in the middle, and put in another order. -/
example : ∃ xs ys zs : List (TimingPoint Dec96), TimingPoints.parse 14 c!"1,2,4,1,0,100,1,0\n3,-100,4,1,0,100,0,0\n5,-50,4,1,0,100,0,0" = .ok xs ∧
    TimingPoints.parse 14 c!"1,2,4,1,0,100,1,0\n5,-50,4,1,0,100,0,0" = .ok ys ∧ ys.Sublist xs ∧
    TimingPoints.parse 14 c!"5,-50,4,1,0,100,0,0\n1,2,4,1,0,100,1,0\n3,-100,4,1,0,100,0,0" = .ok zs ∧ zs.Perm xs := by
  obtain ⟨ys, h1, h2⟩ := (C100_lines (D := Dec96) 14 (s := c!"1,2,4,1,0,100,1,0\n3,-100,4,1,0,100,0,0\n5,-50,4,1,0,100,0,0")
    (t := c!"1,2,4,1,0,100,1,0\n5,-50,4,1,0,100,0,0") (by decide)).1 _ (by rfl)
  obtain ⟨zs, h3, h4⟩ := (C100_lines (D := Dec96) 14 (s := c!"1,2,4,1,0,100,1,0\n3,-100,4,1,0,100,0,0\n5,-50,4,1,0,100,0,0")
    (t := c!"5,-50,4,1,0,100,0,0\n1,2,4,1,0,100,1,0\n3,-100,4,1,0,100,0,0") (by decide)).1 _ (by rfl)
  exact ⟨_, ys, zs, by rfl, h1, h2.2.1 (by decide), h3, h4.2.2 (by decide)⟩

/-- The entries of a text. -/
private theorem splits_of {s : Str} {es : List (KVLine × Str)} (h : getColonFieldValueLines s = .ok [] (es.map toFieldLine)) : KVSplits s es [] := by
  obtain ⟨es', h1, h2⟩ := getFields_iff.1 h
  rw [toFieldLine_inj h2]
  exact h1

/-- The first entry is taken out and the others change places. -/
example : ∃ f g : Metadata.Section, Metadata.fromStr 14 c!"Title: a\nArtist:b c\nTags:x" = .ok f ∧ Metadata.fromStr 14 c!"Tags:x\n\nArtist:b c\n" = .ok g ∧
    FieldsPart g f := by
  have h1 : KVSplits c!"Title: a\nArtist:b c\nTags:x" [(⟨c!"Title", c!" ", c!"a"⟩, c!"\n"), (⟨c!"Artist", [], c!"b c"⟩, c!"\n"), (⟨c!"Tags", [], c!"x"⟩, [])] [] :=
    splits_of rfl
  have h2 : KVSplits c!"Tags:x\n\nArtist:b c\n" [(⟨c!"Tags", [], c!"x"⟩, c!"\n\n"), (⟨c!"Artist", [], c!"b c"⟩, c!"\n")] [] := splits_of rfl
  obtain ⟨g, h3, h4, -⟩ := (C100_fields (D := Dec96) 14 h1 h2 (by decide) (by decide) (by decide)).2.2.1 _ (by rfl)
  exact ⟨_, g, by rfl, h3, h4⟩

private theorem flush_of {s : Str} (h : (lines s).head? = some x) (hx : trim x ≠ []) (hs : x.head? ≠ some ' ' ∧ x.head? ≠ some '_') : Flush s := by
  intro p l q e hp hl
  cases p with
  | nil => rw [e] at h; cases h; exact hs
  | cons y p => rw [e] at h; cases h; exact absurd (hp x (.head _)) hx

private theorem parts_ok : ∀ b ∈ [c!"0,0,a.png\n F,0,1,2,1", c!"2,1,2", c!"//x"], NoEndCR b ∧ Flush b := by
  intro b hb
  simp only [List.mem_cons, List.not_mem_nil, or_false] at hb
  rcases hb with rfl | rfl | rfl
  · exact ⟨by decide, flush_of (x := c!"0,0,a.png") (by decide) (by decide) (by decide)⟩
  · exact ⟨by decide, flush_of (x := c!"2,1,2") (by decide) (by decide) (by decide)⟩
  · exact ⟨by decide, flush_of (x := c!"//x") (by decide) (by decide) (by decide)⟩

example : ∃ es : List (Event Dec96), Events.parseVars 14 [] c!"0,0,a.png\n F,0,1,2,1\n2,1,2\n//x" = .ok es ∧
    ∃ ps : List (List (Event Dec96)), [c!"0,0,a.png\n F,0,1,2,1", c!"2,1,2", c!"//x"].map (Events.parseVars 14 []) = ps.map .ok ∧ es = ps.flatten :=
  ⟨_, by rfl, (C100_parts (D := Dec96) 14 [] [c!"0,0,a.png\n F,0,1,2,1", c!"2,1,2", c!"//x"] _ parts_ok).1 (by rfl)⟩

/-- A comment goes to the front, the background with its command to the end. -/
example : ∃ es es1 : List (Event Dec96), Events.parseVars 14 [] c!"0,0,a.png\n F,0,1,2,1\n2,1,2\n//x" = .ok es ∧
    Events.parseVars 14 [] c!"//x\n2,1,2\n0,0,a.png\n F,0,1,2,1" = .ok es1 ∧ es1.Perm es := by
  obtain ⟨es1, h1, -, -, h2⟩ := C100_events (D := Dec96) 14 [] (cs := [c!"//x", c!"2,1,2", c!"0,0,a.png\n F,0,1,2,1"]) _ parts_ok (by decide) (by rfl)
  exact ⟨_, es1, by rfl, h1, h2 (by decide)⟩

/-- A loop with its command, and a background, are taken out. -/
example : ∃ es es1 : List (Event Dec96),
    Events.parseVars 14 [] c!"Sprite,Pass,Centre,a.png,1,2\n L,1,2\n  F,0,1,2,1\n S,0,3,,1\n0,0,a.png\n//x" = .ok es ∧
    Events.parseVars 14 [] c!"Sprite,Pass,Centre,a.png,1,2\n S,0,3,,1\n//x" = .ok es1 ∧ (evRows es).length = 6 ∧ (evRows es1).length = 3 := by
  obtain ⟨es1, h1, h2, h3, -⟩ := C100_pruned (D := Dec96) 14 [] (s := c!"Sprite,Pass,Centre,a.png,1,2\n L,1,2\n  F,0,1,2,1\n S,0,3,,1\n0,0,a.png\n//x")
    (t := c!"Sprite,Pass,Centre,a.png,1,2\n S,0,3,,1\n//x") _ (by rfl)
    (.keep c!"Sprite,Pass,Centre,a.png,1,2" (.drop c!" L,1,2" (ms := [c!"  F,0,1,2,1"]) (by decide) (fun a ha => by cases ha; decide)
      (.keep c!" S,0,3,,1" (.drop c!"0,0,a.png" (ms := []) nofun (fun a ha => by cases ha; decide) (.keep c!"//x" .nil)))))
  exact ⟨_, es1, by rfl, h1, h3.symm, h2.symm⟩

/-- C100: it is false that lines of an accepted text of events can be taken out: without its sprite a command is refused; and that its lines
can be put in another order. -/
theorem C100_false_events : ∃ s t u : Str, (Events.parse 14 s : Res (LErr EvErr) (List (Event Dec96))).isOk = true ∧
    (inked t).Sublist (inked s) ∧ (Events.parse 14 t : Res (LErr EvErr) (List (Event Dec96))).isOk = false ∧
    (inked u).Perm (inked s) ∧ (Events.parse 14 u : Res (LErr EvErr) (List (Event Dec96))).isOk = false :=
  ⟨c!"0,0,a.png\n F,0,1,2,1", c!" F,0,1,2,1", c!" F,0,1,2,1\n0,0,a.png", by rfl, by decide, by rfl, by decide, by rfl⟩

/-- C100: it is false that an entry can be repeated: a key may occur once only. -/
theorem C100_false_repeated : ∃ s t : Str, (Metadata.fromStr 14 s).isOk = true ∧ inked t ⊆ inked s ∧
    (Metadata.fromStr 14 t).isOk = false :=
  ⟨c!"Title:a", c!"Title:a\nTitle:a", by rfl, by decide, by rfl⟩

/-- The first hit object of a file is taken out and the others change places. -/
example : ∃ f g : OsuFile Dec96, OsuFile.parse c!"osu file format v14\n[HitObjects]\n1,2,3,1,0\n4,5,6,1,0\n7,8,9,1,0" = .ok f ∧
    OsuFile.parse c!"osu file format v14\n[HitObjects]\n7,8,9,1,0\n4,5,6,1,0" = .ok g ∧ ∃ xs ys, f.hitobjects = some xs ∧ g.hitobjects = some ys ∧ ys ⊆ xs := by
  obtain ⟨xs, ys, h1, h2, h3⟩ := (C100_file (D := Dec96) (s := c!"osu file format v14\n[HitObjects]\n1,2,3,1,0\n4,5,6,1,0\n7,8,9,1,0")
    (s' := c!"osu file format v14\n[HitObjects]\n7,8,9,1,0\n4,5,6,1,0") (ws := []) (num := c!"14") (ws' := []) (num' := c!"14")
    (r := c!"\n[HitObjects]\n1,2,3,1,0\n4,5,6,1,0\n7,8,9,1,0") (r' := c!"\n[HitObjects]\n7,8,9,1,0\n4,5,6,1,0") (rest := []) (rest' := [])
    (pre := [[]]) (pre' := [[]]) (a := []) (b := []) (x := ⟨[], c!"HitObjects", ['\n'], c!"1,2,3,1,0\n4,5,6,1,0\n7,8,9,1,0"⟩)
    (x' := ⟨[], c!"HitObjects", ['\n'], c!"7,8,9,1,0\n4,5,6,1,0"⟩)
    ⟨⟨[], .inl rfl, rfl⟩, nofun, by decide, by decide, .inr ⟨_, .inr rfl⟩⟩ (layout_iff.2 ⟨by decide, sections_iff.1 (by decide)⟩)
    ⟨⟨[], .inl rfl, rfl⟩, nofun, by decide, by decide, .inr ⟨_, .inr rfl⟩⟩ (layout_iff.2 ⟨by decide, sections_iff.1 (by decide)⟩)
    (by
      intro l hl
      have : l = [] := by simpa using hl
      exact .inl (by rw [this]; rfl))
    rfl (by rfl) known_14 (by decide)).2.1 rfl (by decide)
  exact ⟨_, _, by rfl, h2, xs, ys, h1, rfl, h3.1⟩

end

end Osu
