/-
C84: which loaded files are equal (`==`).
-/
import Verif.Proof.Equality
import Verif.Props.Paths
import Verif.Props.FileText
import Verif.Props.Osb
import Verif.Props.Events
import Verif.Proof.Alike

namespace Osu
open SB Ev

variable {D : Type} [DecSame D] [DecLib D]

section
attribute [local instance] asciiUni

/-- A timing point and a background, in two spellings. -/
private def spellOne : Str := c!"osu file format v14\n[Events]\n0,0,a b\n[TimingPoints]\n1.0,2,4,1,0,100,1,0"
private def spellTwo : Str := c!"osu file format v14\n[Events]\n0,0,a b/\n[TimingPoints]\n1,2.00,4,1,0,100,1,0"

private theorem both_load : ∃ f g : OsuFile Dec96, OsuFile.parse spellOne = .ok f ∧ OsuFile.parse spellTwo = .ok g ∧ f.same g = true ∧
    f.version = 14 ∧ f.shw = some c!"osu file format v14\n\n[Events]\n0,0,\"a b\"\n\n[TimingPoints]\n1.0,2,4,1,0,100,1,0" ∧
    g.shw = some c!"osu file format v14\n\n[Events]\n0,0,\"a b/\"\n\n[TimingPoints]\n1,2.00,4,1,0,100,1,0" := by
  obtain ⟨f, hf⟩ := Res.of_isOk (r := (OsuFile.parse spellOne : Res _ (OsuFile Dec96))) (by decide)
  obtain ⟨g, hg⟩ := Res.of_isOk (r := (OsuFile.parse spellTwo : Res _ (OsuFile Dec96))) (by decide)
  have h : (OsuFile.parse spellOne >>= fun f : OsuFile Dec96 => OsuFile.parse spellTwo >>= fun g : OsuFile Dec96 =>
      Res.ok (f.same g, f.version, f.shw, g.shw) : Res _ (Bool × Nat × Option Str × Option Str)) =
      .ok (true, 14, some c!"osu file format v14\n\n[Events]\n0,0,\"a b\"\n\n[TimingPoints]\n1.0,2,4,1,0,100,1,0",
        some c!"osu file format v14\n\n[Events]\n0,0,\"a b/\"\n\n[TimingPoints]\n1,2.00,4,1,0,100,1,0") := by decide
  rw [hf, hg] at h
  have h := Res.ok.inj h
  simp only [Prod.mk.injEq] at h
  exact ⟨f, g, hf, hg, h⟩

end

/-- Shortest spelling of a path. -/
def shortPath (p : Str) : Str := (pathParts p).shw

omit [DecSame D] [DecLib D] in
theorem shortPath_iff (p q : Str) : pathEq p q = true ↔ shortPath p = shortPath q := by
  constructor
  · intro h
    rw [shortPath, of_decide_eq_true h, shortPath]
  · intro h
    rw [C77_exact]
    have hp := (same_shw p).same
    have hq := (same_shw q).same
    unfold shortPath at h
    rw [h] at hp
    exact hp.trans hq.symm

/-- Two files are equal exactly if they become the same once every number and every path in them is put in one spelling. The
spellings can be any that are the same for equal numbers and paths and different for others. -/
theorem C84_exact {d : D → D} {p : Str → Str} (hd : ∀ a b, DecSame.eq a b = true ↔ d a = d b)
    (hp : ∀ a b, pathEq a b = true ↔ p a = p b) (f g : OsuFile D) : f.same g = true ↔ f.respell d p = g.respell d p :=
  OsuFile.same_iff hd hp f g

example (f g : OsuFile Dec96) : f.same g = true ↔ f.respell DecSame.norm shortPath = g.respell DecSame.norm shortPath :=
  C84_exact DecSame.eq_iff shortPath_iff f g

omit [DecLib D] in
/-- The same for storyboard files. -/
theorem C84_exact_storyboard {d : D → D} {p : Str → Str} (hd : ∀ a b, DecSame.eq a b = true ↔ d a = d b)
    (hp : ∀ a b, pathEq a b = true ↔ p a = p b) (f g : Osb D) : f.same g = true ↔ f.respell d p = g.respell d p :=
  Osb.same_iff hd hp f g

example : (⟨some [⟨c!"x", c!"1"⟩], some [.sampleLegacy ⟨.left ⟨false, 10, 1⟩, .foreground, c!"a/b", none, []⟩]⟩ : Osb Dec96).same
    ⟨some [⟨c!"x", c!"1"⟩], some [.sampleLegacy ⟨.left ⟨false, 1, 0⟩, .foreground, c!"a//b", none, []⟩]⟩ = true :=
  (C84_exact_storyboard DecSame.eq_iff shortPath_iff _ _).2 (by rfl)

/-- Equality of files is an equivalence. -/
theorem C84_equivalence : (∀ f : OsuFile D, f.same f = true) ∧ (∀ f g : OsuFile D, f.same g = true → g.same f = true) ∧
    ∀ f g h : OsuFile D, f.same g = true → g.same h = true → f.same h = true := by
  simp only [C84_exact DecSame.eq_iff shortPath_iff]
  exact ⟨by simp, fun _ _ => Eq.symm, fun _ _ _ => Eq.trans⟩

example : ∃ (f g : OsuFile Dec96), f.same g = true ∧ g.same f = true :=
  have ⟨f, g, _, _, h, _⟩ := both_load
  ⟨f, g, h, C84_equivalence.2.1 f g h⟩

/-- A file stays equal to itself when numbers and paths are put in other spellings, in places of any kind. -/
theorem C84_respelled {d : D → D} {p : Str → Str} (hd : ∀ a, DecSame.eq a (d a) = true) (hp : ∀ a, pathEq a (p a) = true)
    (f : OsuFile D) : f.same (f.respell d p) = true := by
  rw [C84_exact DecSame.eq_iff shortPath_iff, OsuFile.respell_respell]
  have h1 : (fun a => DecSame.norm (d a)) = DecSame.norm := funext fun a => ((DecSame.eq_iff _ _).1 (hd a)).symm
  have h2 : (fun a => shortPath (p a)) = shortPath := funext fun a => ((shortPath_iff _ _).1 (hp a)).symm
  rw [h1, h2]

example : exampleFile.same (exampleFile.respell DecSame.norm shortPath) = true :=
  C84_respelled (fun a => by rw [DecSame.eq_iff, DecSame.norm_norm]) (fun a => by rw [C77_exact]; exact (same_shw a).same) _

/-- Every file has exactly one equal file in which all numbers are normalized and all paths shortest. -/
theorem C84_normal (f : OsuFile D) : f.same (f.respell DecSame.norm shortPath) = true ∧
    ∀ g : OsuFile D, f.same g = true → g.respell DecSame.norm shortPath = g → g = f.respell DecSame.norm shortPath := by
  constructor
  · refine C84_respelled (fun a => ?_) (fun a => ?_) f
    · rw [DecSame.eq_iff, DecSame.norm_norm]
    · rw [C77_exact]
      exact (same_shw a).same
  · intro g h hg
    rw [C84_exact DecSame.eq_iff shortPath_iff] at h
    rw [h, hg]

example : ∃ (f g : OsuFile Dec96), f.same g = true ∧ f.respell DecSame.norm shortPath = g.respell DecSame.norm shortPath ∧
    f.same (f.respell DecSame.norm shortPath) = true :=
  have ⟨f, g, _, _, h, _⟩ := both_load
  ⟨f, g, h, (C84_exact DecSame.eq_iff shortPath_iff f g).1 h, (C84_normal f).1⟩

/-- Equal files have the same version, metadata and colours, the same sections, and as many events, timing points and hit
objects. -/
theorem C84_kept {f g : OsuFile D} (h : f.same g = true) : f.version = g.version ∧ f.metadata = g.metadata ∧ f.colours = g.colours ∧
    f.general.isSome = g.general.isSome ∧ f.editor.isSome = g.editor.isSome ∧ f.osb.isSome = g.osb.isSome ∧
    f.difficulty.isSome = g.difficulty.isSome ∧ f.events.map List.length = g.events.map List.length ∧
    f.timingPoints.map List.length = g.timingPoints.map List.length ∧ f.hitobjects.map List.length = g.hitobjects.map List.length := by
  rw [C84_exact DecSame.eq_iff shortPath_iff] at h
  unfold OsuFile.respell at h
  injection h with h1 h2 h3 h4 h5 h6 h7 h8 h9 h10
  have len : ∀ {α : Type} {r : α → α} {x y : Option (List α)}, x.map (List.map r) = y.map (List.map r) →
      x.map List.length = y.map List.length := by
    intro α r x y h
    have := congrArg (Option.map List.length) h
    simpa [Function.comp_def] using this
  have some : ∀ {α : Type} {r : α → α} {x y : Option α}, x.map r = y.map r → x.isSome = y.isSome := by
    intro α r x y h
    have := congrArg Option.isSome h
    simpa using this
  exact ⟨h1, h5, h9, some h2, some h3, some h4, some h6, len h7, len h8, len h10⟩

section
attribute [local instance] asciiUni

example : ∃ (f g : OsuFile Dec96), f.colours = g.colours ∧ f.events.map List.length = g.events.map List.length ∧ f.events.isSome = true := by
  obtain ⟨f, g, hf, hg, h, -⟩ := both_load
  have := C84_kept h
  exact ⟨f, g, this.2.2.1, this.2.2.2.2.2.2.2.1, by
    have h : (OsuFile.parse spellOne >>= fun f : OsuFile Dec96 => Res.ok f.events.isSome : Res _ Bool) = .ok true := by decide
    rw [hf] at h
    exact Res.ok.inj h⟩

end

section
variable [UniLib]

/-- Two equal files that are loaded back as they were when they are saved: what is loaded back is equal too. -/
theorem C84_saved {f g : OsuFile D} (h : f.same g = true) (hf : FileWritable f) (hg : FileWritable g) : ∃ s t, ∃ f' g' : OsuFile D,
    f.shw = some s ∧ g.shw = some t ∧ OsuFile.parse s = .ok f' ∧ OsuFile.parse t = .ok g' ∧ f'.same g' = true := by
  obtain ⟨s, hs, hs'⟩ := C41_round_trip hf
  obtain ⟨t, ht, ht'⟩ := C41_round_trip hg
  exact ⟨s, t, f, g, hs, ht, hs', ht', h⟩

end

section
attribute [local instance] asciiUni

example : ∃ s t, ∃ f' g' : OsuFile Dec96, exampleFile.shw = some s ∧ exampleFile.shw = some t ∧ OsuFile.parse s = .ok f' ∧
    OsuFile.parse t = .ok g' ∧ f'.same g' = true :=
  C84_saved (C84_equivalence.1 _) exampleFile_ok exampleFile_ok

end

section
variable [UniLib]

/-- The paths of files that were loaded. -/
theorem loaded_paths {s : Str} {f : OsuFile D} (h : OsuFile.parse s = .ok f) : PlainPaths f := by
  obtain ⟨ws, num, r, pre, xs, rest, hv, hk, hl, hp, hf⟩ := (C53_exact s f).1 h
  obtain ⟨-, -, -, h4, h5⟩ := hf
  have hbody : ∀ n : SName, SectAbsent f n ∨ ∃ body, SectReads f.version f body n := by
    intro n
    by_cases hn : n.text ∈ xs.map Sect.name
    · right
      obtain ⟨x, hx, e⟩ := List.mem_map.1 hn
      obtain ⟨-, m, g2, g3⟩ := h4 x hx
      have := SName.text_inj (g2.trans e)
      subst this
      exact ⟨x.body, g3⟩
    · exact .inl (h5 n hn)
  constructor
  · intro g hg a ha
    rcases hbody .general with h0 | ⟨body, sec, e1, e2⟩
    · rw [show f.general = none from h0] at hg; cases hg
    · rw [hg] at e2; cases e2
      obtain ⟨u, hu, hpu⟩ := Schema.fromStr_post (General_lawful D) e1 .audioFilename a ha
      have : a = u := by
        have : (.ok (some u) : Res FieldErr (Option Str)) = .ok (some a) := hpu
        cases this; rfl
      rw [this]
      intro hm
      have := hu.1 _ hm
      simp at this
  · intro l hl e he a ha
    rcases hbody .events with h0 | ⟨body, l', e1, e2⟩
    · rw [show f.events = none from h0] at hl; cases hl
    · rw [hl] at e2; cases e2
      have key : ∀ {p : FilePath}, PathWritableC true p → ',' ∉ p ∧ '\n' ∉ p := fun hp =>
        ⟨fun h => absurd (hp _ h) (by decide), fun h => absurd (hp _ h) (by decide)⟩
      rcases C34_read_fits e1 e he with hw | ⟨-, c, rfl⟩
      · have hw := hw.1
        cases e <;> simp only [pathOf, reduceCtorEq, Option.some.injEq] at ha
        case object o _ =>
          have h3 := hw.2.2.2
          cases ho : o.objectType <;> simp only [ho, Option.some.injEq] at ha h3 <;> subst ha
          · exact key h3
          · exact key h3.2
        all_goals
          subst ha
          first | exact key hw.1 | exact key hw.2.1
      · simp [pathOf] at ha

omit [UniLib] in
/-- Equal files are written to texts that differ at most in the spelling of numbers and paths. -/
theorem C84_text {f g : OsuFile D} (h : f.same g = true) (hv : 5 ≤ f.version) (hf : PlainPaths f) (hg : PlainPaths g) :
    ∃ s t, f.shw = some s ∧ g.shw = some t ∧ Alike D s t := OsuFile.alike hv h hf hg

example (f : OsuFile Dec96) (hv : f.version = 7) (hf : PlainPaths f) (hn : PlainPaths (f.respell DecSame.norm shortPath)) :
    ∃ s t, f.shw = some s ∧ (f.respell DecSame.norm shortPath).shw = some t ∧ Alike Dec96 s t :=
  C84_text (C84_normal f).1 (by omega) hf hn

/-- When two equal files have been loaded, the texts they are saved to differ at most in the spelling of numbers and paths. -/
theorem C84_text_loaded {s t : Str} {f g : OsuFile D} (hf : OsuFile.parse s = .ok f) (hg : OsuFile.parse t = .ok g) (h : f.same g = true)
    (hv : 5 ≤ f.version) : ∃ s' t', f.shw = some s' ∧ g.shw = some t' ∧ Alike D s' t' :=
  C84_text h hv (loaded_paths hf) (loaded_paths hg)

end

section
attribute [local instance] asciiUni

example : ∃ (f g : OsuFile Dec96) (s t : Str), f.shw = some s ∧ g.shw = some t ∧ s ≠ t ∧ Alike Dec96 s t := by
  obtain ⟨f, g, hf, hg, h, hv, h1, h2⟩ := both_load
  obtain ⟨s, t, h3, h4, h5⟩ := C84_text_loaded hf hg h (by omega)
  rw [h1] at h3
  rw [h2] at h4
  cases h3
  cases h4
  exact ⟨f, g, _, _, h1, h2, by decide, h5⟩

end

/-- Equal storyboards without variables are written to texts that differ at most in the spelling of numbers and paths. -/
theorem C84_text_storyboard {v : Nat} (hv : 14 ≤ v) {o p : Osb D} (h : o.same p = true) (ho : o.variables.getD [] = [])
    (hp : ∀ l, o.events = some l → ∀ e ∈ l, ∀ a, pathOf e = some a → ',' ∉ a ∧ '\n' ∉ a) (hq : ∀ l, p.events = some l → ∀ e ∈ l, ∀ a, pathOf e = some a → ',' ∉ a ∧ '\n' ∉ a) :
    ∃ s t, o.shw v = some (some s) ∧ p.shw v = some (some t) ∧ Alike D s t := by
  obtain ⟨vs, es⟩ := o
  obtain ⟨vs', es'⟩ := p
  simp only [Osb.same, Bool.and_eq_true, decide_eq_true_eq] at h
  obtain ⟨rfl, h⟩ := h
  have hv' : ¬ v < 14 := by omega
  unfold Osb.shw
  simp only [if_neg hv', ho]
  dsimp only at ho hp hq h
  cases es <;> cases es' <;> simp only [sameOpt, Bool.false_eq_true] at h
  · exact ⟨_, _, rfl, rfl, .text _⟩
  · rename_i l m
    obtain ⟨a, b, h1, h2, h3⟩ := events_alike (v := v) (by omega) h (hp _ rfl) (hq _ rfl)
    have e1 : Events.shwVars v [] l = some a := h1
    have e2 : Events.shwVars v [] m = some b := h2
    have hd : Alike D (c!"[Events]\n" ++ a) (c!"[Events]\n" ++ b)   := Alike.separated (a := c!"[Events]") '\n' (by decide) (.text _) h3
    simp only [e1, e2]
    cases vs with
    | none => exact ⟨_, _, rfl, rfl, by simpa [join] using hd⟩
    | some w =>
      refine ⟨_, _, rfl, rfl, ?_⟩
      have   := Alike.separated (a := c!"[Variables]\n" ++ join ['\n'] (w.map Variable.shw)) '\n' (by decide) (.text _)
        (Alike.separated (a := []) '\n' (by decide) (.text _) hd)
      simpa [join] using this

section
attribute [local instance] asciiUni

/-- A sprite with one scale command of the given value. -/
private def scaled (x : Str) : List (Event Dec96) :=
  [.object ⟨.foreground, ⟨.inr 12, true⟩, ⟨.ofStr c!"1", .ofStr c!"2"⟩, .sprite c!"a.png", [.mk (some 320) (.scale .linear none (.ofStr x) [])]⟩]

example : ∃ s t, ∃ o p : Osb Dec96, o.shw 14 = some (some s) ∧ p.shw 14 = some (some t) ∧ s ≠ t ∧ Alike Dec96 s t := by
  have hp : ∀ l, (some (scaled c!"1.0")) = some l → ∀ e ∈ l, ∀ a, pathOf e = some a → ',' ∉ a ∧ '\n' ∉ a := fun l h e he a ha => by
    cases h
    have he := List.mem_singleton.1 he
    subst he
    cases ha
    decide
  have hq : ∀ l, (some (scaled c!"1.00")) = some l → ∀ e ∈ l, ∀ a, pathOf e = some a → ',' ∉ a ∧ '\n' ∉ a := fun l h e he a ha => by
    cases h
    have he := List.mem_singleton.1 he
    subst he
    cases ha
    decide
  obtain ⟨s, t, h1, h2, h3⟩ := C84_text_storyboard (v := 14) (o := ⟨none, some (scaled c!"1.0")⟩) (p := ⟨none, some (scaled c!"1.00")⟩)
    (by decide) (by decide) rfl hp hq
  refine ⟨s, t, _, _, h1, h2, ?_, h3⟩
  rintro rfl
  rw [← h2] at h1
  exact absurd h1 (by decide)

end

section
variable [UniLib]

/-- Equal storyboards that are loaded back as they were stay equal through saving and loading, with variables too. -/
theorem C84_saved_storyboard {v : Nat} (hv : 14 ≤ v) {o p : Osb D} (h : o.same p = true) (ho : OsbWritable v o) (hp : OsbWritable v p)
    (qo : ∀ es, o.events = some es → ∀ e ∈ es, ∀ f, pathOf e = some f → PathPlain f)
    (qp : ∀ es, p.events = some es → ∀ e ∈ es, ∀ f, pathOf e = some f → PathPlain f) : ∃ s t, ∃ o' p' : Osb D,
    o.shw v = some (some s) ∧ p.shw v = some (some t) ∧ Osb.parse v s = .ok (some o') ∧ Osb.parse v t = .ok (some p') ∧ o'.same p' = true := by
  obtain ⟨s, hs, hs'⟩ := C39_round_trip_plain hv ho qo
  obtain ⟨t, ht, ht'⟩ := C39_round_trip_plain hv hp qp
  exact ⟨s, t, o, p, hs, ht, hs', ht', h⟩

end

section
attribute [local instance] asciiUni

example : ∃ s t, ∃ o' p' : Osb Dec96, osbExample.shw 14 = some (some s) ∧ osbExample.shw 14 = some (some t) ∧
    Osb.parse 14 s = .ok (some o') ∧ Osb.parse 14 t = .ok (some p') ∧ o'.same p' = true := by
  have hq : ∀ es, osbExample.events = some es → ∀ e ∈ es, ∀ f, pathOf e = some f → PathPlain f := fun es h e he f hf => by
    cases h
    have he := List.mem_singleton.1 he
    subst he
    cases hf
    decide
  exact C84_saved_storyboard (by decide) (by decide) osbExample_ok osbExample_ok hq hq

end

/-! ### What equality is not -/

section
attribute [local instance] asciiUni

/-- Files that are equal need not be so after they have been saved and loaded again: quotes are put around the spelling of a path. -/
theorem C84_false_saved : ∃ (s t : Str) (f g f' g' : OsuFile Dec96) (s' t' : Str), OsuFile.parse s = .ok f ∧ OsuFile.parse t = .ok g ∧
    f.same g = true ∧ f.shw = some s' ∧ g.shw = some t' ∧ OsuFile.parse s' = .ok f' ∧ OsuFile.parse t' = .ok g' ∧ f'.same g' = false := by
  obtain ⟨f, g, hf, hg, h, hv, h1, h2⟩ := both_load
  obtain ⟨f', hf'⟩ := Res.of_isOk (r := (OsuFile.parse
    c!"osu file format v14\n\n[Events]\n0,0,\"a b\"\n\n[TimingPoints]\n1.0,2,4,1,0,100,1,0" : Res _ (OsuFile Dec96))) (by decide)
  obtain ⟨g', hg'⟩ := Res.of_isOk (r := (OsuFile.parse
    c!"osu file format v14\n\n[Events]\n0,0,\"a b/\"\n\n[TimingPoints]\n1,2.00,4,1,0,100,1,0" : Res _ (OsuFile Dec96))) (by decide)
  have h' : (OsuFile.parse c!"osu file format v14\n\n[Events]\n0,0,\"a b\"\n\n[TimingPoints]\n1.0,2,4,1,0,100,1,0" >>=
      fun f : OsuFile Dec96 => OsuFile.parse c!"osu file format v14\n\n[Events]\n0,0,\"a b/\"\n\n[TimingPoints]\n1,2.00,4,1,0,100,1,0" >>=
      fun g : OsuFile Dec96 => Res.ok (f.same g) : Res _ Bool) = .ok false := by decide
  rw [hf', hg'] at h'
  exact ⟨_, _, f, g, f', g', _, _, hf, hg, h, h1, h2, hf', hg', Res.ok.inj h'⟩

/-- Files that differ only in how the kind of an event is written are not equal. -/
theorem C84_false_kind : ∃ f g : OsuFile Dec96, OsuFile.parse c!"osu file format v14\n[Events]\n2,1,2" = .ok f ∧
    OsuFile.parse c!"osu file format v14\n[Events]\nBreak,1,2" = .ok g ∧ f.same g = false := by
  obtain ⟨f, hf⟩ := Res.of_isOk (r := (OsuFile.parse c!"osu file format v14\n[Events]\n2,1,2" : Res _ (OsuFile Dec96))) (by decide)
  obtain ⟨g, hg⟩ := Res.of_isOk (r := (OsuFile.parse c!"osu file format v14\n[Events]\nBreak,1,2" : Res _ (OsuFile Dec96))) (by decide)
  have h : (OsuFile.parse c!"osu file format v14\n[Events]\n2,1,2" >>= fun f : OsuFile Dec96 =>
    OsuFile.parse c!"osu file format v14\n[Events]\nBreak,1,2" >>= fun g : OsuFile Dec96 => Res.ok (f.same g) : Res _ Bool) = .ok false := by decide
  rw [hf, hg] at h
  exact ⟨f, g, hf, hg, Res.ok.inj h⟩

/-- Nor are files equal in which the same number is spelled as a number and as a text the library does not read as a number. -/
theorem C84_false_number : ∃ f g : OsuFile Dec96, OsuFile.parse c!"osu file format v14\n[Difficulty]\nCircleSize:4" = .ok f ∧
    OsuFile.parse c!"osu file format v14\n[Difficulty]\nCircleSize:4e0" = .ok g ∧ f.same g = false := by
  obtain ⟨f, hf⟩ := Res.of_isOk (r := (OsuFile.parse c!"osu file format v14\n[Difficulty]\nCircleSize:4" : Res _ (OsuFile Dec96))) (by decide)
  obtain ⟨g, hg⟩ := Res.of_isOk (r := (OsuFile.parse c!"osu file format v14\n[Difficulty]\nCircleSize:4e0" : Res _ (OsuFile Dec96))) (by decide)
  have h : (OsuFile.parse c!"osu file format v14\n[Difficulty]\nCircleSize:4" >>= fun f : OsuFile Dec96 =>
    OsuFile.parse c!"osu file format v14\n[Difficulty]\nCircleSize:4e0" >>= fun g : OsuFile Dec96 => Res.ok (f.same g) : Res _ Bool) = .ok false := by decide
  rw [hf, hg] at h
  exact ⟨f, g, hf, hg, Res.ok.inj h⟩

/-- With variables the texts of equal storyboards differ in more than the spelling: a variable is written where its own spelling
of the number occurs, and no other spelling. -/
theorem C84_false_text_storyboard : ∃ o p : Osb Dec96,
    Osb.parse 14 c!"[Variables]\n$x=1.0\n[Events]\nSprite,Foreground,12,a.png,1,2\n S,0,320,,1.0" = .ok (some o) ∧
    Osb.parse 14 c!"[Variables]\n$x=1.0\n[Events]\nSprite,Foreground,12,a.png,1,2\n S,0,320,,1.00" = .ok (some p) ∧
    o.same p = true ∧
    o.shw 14 = some (some c!"[Variables]\n$x=1.0\n\n[Events]\nSprite,Foreground,12,a.png,1,2\n S,0,320,,$x") ∧
    p.shw 14 = some (some c!"[Variables]\n$x=1.0\n\n[Events]\nSprite,Foreground,12,a.png,1,2\n S,0,320,,$x0") :=
  ⟨_, _, by rfl, by rfl, by decide, by decide, by decide⟩

end

end Osu
