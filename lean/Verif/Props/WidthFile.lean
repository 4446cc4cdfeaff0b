/-
C93: files in a build for a target with a smaller `usize`.
-/
import Verif.Props.Width
import Verif.Props.Faults
import Verif.Proof.FileTop

namespace Osu
open Ev

section
variable {D : Type} [DecLib D]

/-- The section of hit objects: the same, or an error. -/
theorem objects_narrow {m : Nat} (hm : IsUsizeMax m) (v : Nat) (s : Str) :
    (HitObjects.parseW m v s = (HitObjects.parse v s : Res _ (List (HitObject D))) ∧
      ∀ l, (HitObjects.parse v s : Res _ (List (HitObject D))) = .ok l → ∀ o ∈ l, objectFits m o) ∨
    ∃ k c, (HitObjects.parseW m v s : Res _ (List (HitObject D))) = .err ⟨k, c⟩ ∧
      ∀ l : List (HitObject D), HitObjects.parse v s = .ok l → (¬ ∀ o ∈ l, objectFits m o) ∧ SampleErr c := by
  cases h : (HitObjects.parseW m v s : Res _ (List (HitObject D))) with
  | ok l =>
    obtain ⟨h1, h2⟩ := (C93_section hm).1 h
    refine .inl ⟨h1.symm, fun l' h' => ?_⟩
    rw [h1] at h'; cases h'; exact h2
  | panic =>
    have : (HitObjects.parse v s : Res _ (List (HitObject D))) = .panic := by
      unfold HitObjects.parseW at h
      unfold HitObjects.parse
      rw [parseLines_panic_split] at h ⊢
      obtain ⟨pre, l, post, h1, h2, h3, h4⟩ := h
      refine ⟨pre, l, post, h1, fun x hx => ?_, h3, C93_object_panic.1 h4⟩
      rcases h2 x hx with h | ⟨a, h⟩
      · exact .inl h
      · exact .inr ⟨a, ((C93_object hm).1 h).1⟩
    rw [this]
    exact .inl ⟨rfl, fun l h => nomatch h⟩
  | err e =>
    obtain ⟨k, c⟩ := e
    refine .inr ⟨k, c, rfl, fun l hl => ⟨fun hf => ?_, ?_⟩⟩
    · rw [(C93_section hm).2 ⟨hl, hf⟩] at h; cases h
    · unfold HitObjects.parseW at h
      rw [parseLines_err_iff] at h
      obtain ⟨⟨x, hx, hb, he⟩, -⟩ := h
      unfold HitObjects.parse at hl
      rw [parseLines_ok_iff] at hl
      have hmem : (HitObject.parse v x : Res _ (HitObject D)) ∈ ((lines s).filter nonBlank).map (HitObject.parse v) :=
        List.mem_map_of_mem (List.mem_filter.2 ⟨List.mem_of_getElem? hx, hb⟩)
      rw [hl] at hmem
      obtain ⟨o, -, ho⟩ := List.mem_map.1 hmem
      have hn : ¬ objectFits m o := fun hf => by
        rw [(C93_object hm).2 ⟨ho.symm, hf⟩] at he; cases he
      obtain ⟨c', h1, h2⟩ := HitObject.parseW_err hm ho.symm hn
      rw [he] at h1
      cases h1
      rcases h2 with ⟨-, rfl⟩ | ⟨-, rfl⟩
      · exact .inl rfl
      · exact .inr rfl

variable [UniLib]

/-- How the results of the two builds are related. -/
def Narrower (m : Nat) (w x : Res (LErr FileErr) (OsuFile D)) : Prop :=
  (w = x ∧ ∀ f, x = .ok f → fileFits m f) ∨
  (∃ l e e', w = .err ⟨l, .general (.field e)⟩ ∧ x = .err ⟨l, .general (.field e')⟩ ∧ TooLarge e) ∨
  (∃ l c, w = .err ⟨l, .hitobjects c⟩ ∧ ∀ f, x = .ok f → ¬ fileFits m f ∧ SampleErr c)

/-- The loop of `OsuFile::from_str` with a smaller `usize`. -/
abbrev fileLoopW (m v : Nat) (xs : List Sect) (line : Nat) (seen : List Str) (st : OsuFile D) : Res (LErr FileErr) (OsuFile D) :=
  sectionLoop .duplicateSections .unknownSection (OsuFile.handleW m v)
    (fun line n => if n = 0 then none else some (line + (n - 1))) xs line seen st

/-- What is done with one section. -/
theorem handle_narrow {m : Nat} (hm : IsUsizeMax m) (v : Nat) {st : OsuFile D} (hst : fileFits m st) (name body : Str)
    (line : Nat) :
    (OsuFile.handleW m v st name body line = OsuFile.handle v st name body line ∧
      ∀ f, OsuFile.handle v st name body line = some (.ok f) → fileFits m f) ∨
    (∃ l e e', OsuFile.handleW m v st name body line = some (.err ⟨l, .general (.field e)⟩) ∧
      OsuFile.handle v st name body line = some (.err ⟨l, .general (.field e')⟩) ∧ TooLarge e) ∨
    (name = SName.text .hitobjects ∧
      ∃ l c, OsuFile.handleW m v st name body line = some (.err ⟨l, .hitobjects c⟩) ∧
        ∀ l' : List (HitObject D), HitObjects.parse v body = .ok l' → (¬ ∀ o ∈ l', objectFits m o) ∧ SampleErr c) := by
  by_cases hn : ∃ n : SName, n.text = name
  · obtain ⟨n, rfl⟩ := hn
    have keep : n ≠ .hitobjects → ∀ f, OsuFile.handle v st n.text body line = some (.ok f) → fileFits m f := by
      intro hne f hf
      obtain ⟨r, h1, h2, -⟩ := handle_name v st n body line
      rw [h1] at hf
      cases hf
      have := ((h2 f).1 rfl).2.1 .hitobjects (fun e => hne e.symm)
      intro l hl
      exact hst l ((show f.hitobjects = st.hitobjects from this) ▸ hl)
    cases n
    case general =>
      rcases generalW_fromStr (D := D) hm v body with h | ⟨l, e, e', h1, h2, h3⟩
      · refine .inl ⟨?_, keep (by decide)⟩
        show some (processingLine FileErr.general ((GeneralW m D).fromStr v body) line >>= _) =
          some (processingLine FileErr.general ((General D).fromStr v body) line >>= _)
        have : (GeneralW m D).fromStr v body = (show Res _ (GeneralW m D).Section from (General D).fromStr v body) := h
        rw [this]; rfl
      · refine .inr (.inl ⟨l + line, e, e', ?_, ?_, h3⟩)
        · show some (processingLine FileErr.general ((GeneralW m D).fromStr v body) line >>= _) = _
          have : (GeneralW m D).fromStr v body = .err ⟨l, .field e⟩ := h1
          rw [this]; rfl
        · show some (processingLine FileErr.general ((General D).fromStr v body) line >>= _) = _
          rw [h2]; rfl
    case events =>
      refine .inl ⟨?_, keep (by decide)⟩
      show some (processingLine FileErr.events (Events.parseVarsW m v [] body) line >>= _) = _
      rw [Ev.Events.parseVarsW_eq hm]; rfl
    case hitobjects =>
      rcases objects_narrow (D := D) hm v body with ⟨h1, h2⟩ | ⟨k, c, h1, h2⟩
      · refine .inl ⟨?_, ?_⟩
        · show some (processingLine FileErr.hitobjects (HitObjects.parseW m v body) line >>= _) = _
          rw [h1]; rfl
        · intro f hf
          obtain ⟨r, e1, e2, -⟩ := handle_name v st .hitobjects body line
          rw [e1] at hf
          cases hf
          obtain ⟨x, hx, hfx⟩ := ((e2 f).1 rfl).1
          intro l hl
          have : some x = some l := (show f.hitobjects = some x from hfx) ▸ hl
          cases this
          exact h2 _ hx
      · refine .inr (.inr ⟨rfl, k + line, c, ?_, h2⟩)
        show some (processingLine FileErr.hitobjects (HitObjects.parseW m v body) line >>= _) = _
        rw [h1]; rfl
    all_goals exact .inl ⟨rfl, keep (by decide)⟩
  · have h0 : OsuFile.handle v st name body line = none := handle_none.2 (fun n h => hn ⟨n, h⟩)
    refine .inl ⟨?_, fun f h => by rw [h0] at h; cases h⟩
    unfold OsuFile.handleW
    rw [if_neg (fun e => hn ⟨.general, e.symm⟩), if_neg (fun e => hn ⟨.events, e.symm⟩),
      if_neg (fun e => hn ⟨.hitobjects, e.symm⟩)]

theorem fileLoop_narrow {m : Nat} (hm : IsUsizeMax m) (v : Nat) (xs : List Sect) (line : Nat) (seen : List Str)
    {st : OsuFile D} (hst : fileFits m st) :
    Narrower m (fileLoopW m v xs line seen st) (fileLoop v xs line seen st) := by
  induction xs generalizing line seen st with
  | nil => exact .inl ⟨rfl, fun f h => by cases h; exact hst⟩
  | cons x xs ih =>
    by_cases hx : x.name ∈ seen
    · simp only [fileLoop, fileLoopW, sectionLoop, if_pos hx]
      exact .inl ⟨rfl, fun f h => nomatch h⟩
    · rcases handle_narrow hm v hst x.name x.body (line + (lines x.ws).length + (lines x.ws2).length) with
        ⟨h1, h2⟩ | ⟨l, e, e', h1, h2, h3⟩ | ⟨h0, l, c, h1, h2⟩
      · simp only [fileLoop, fileLoopW, sectionLoop, if_neg hx, h1]
        cases hh : OsuFile.handle v st x.name x.body (line + (lines x.ws).length + (lines x.ws2).length) with
        | none => exact .inl ⟨rfl, fun f h => nomatch h⟩
        | some r =>
          cases r with
          | err e => exact .inl ⟨rfl, fun f h => nomatch h⟩
          | panic => exact .inl ⟨rfl, fun f h => nomatch h⟩
          | ok st' =>
            simp only
            by_cases hb : (lines x.body).length = 0
            · rw [if_pos hb]; exact .inl ⟨rfl, fun f h => nomatch h⟩
            · rw [if_neg hb]
              exact ih _ _ (h2 st' hh)
      · simp only [fileLoop, fileLoopW, sectionLoop, if_neg hx, h1, h2]
        exact .inr (.inl ⟨l, e, e', rfl, rfl, h3⟩)
      · refine .inr (.inr ⟨l, c, ?_, ?_⟩)
        · simp only [fileLoopW, sectionLoop, if_neg hx, h1]
        · intro f hf
          obtain ⟨-, -, -, -, h5, -⟩ := fileLoop_ok.1 hf
          obtain ⟨-, n, hn, hr⟩ := h5 x (List.mem_cons_self ..)
          have : n = .hitobjects := SName.text_inj (hn.trans h0)
          subst this
          obtain ⟨y, hy, hfy⟩ := hr
          obtain ⟨h6, h7⟩ := h2 y hy
          exact ⟨fun hfit => h6 (hfit y hfy), h7⟩

theorem parse_narrow {m : Nat} (hm : IsUsizeMax m) (s : Str) :
    Narrower m (OsuFile.parseW m s : Res _ (OsuFile D)) (OsuFile.parse s) := by
  have rest : ∀ (v : Nat) (ws r : Str), Narrower m (OsuFile.parseRestW m v ws r : Res _ (OsuFile D)) (OsuFile.parseRest v ws r) := by
    intro v ws r
    unfold OsuFile.parseRestW OsuFile.parseRest
    cases preBad 0 ((lines r).take (preCount r)) with
    | some i => exact .inl ⟨rfl, fun f h => nomatch h⟩
    | none =>
      simp only
      cases Parser.many0 squareSection (sectionText r) with
      | ok r' xs => exact fileLoop_narrow hm v xs _ _ (fun l h => nomatch h)
      | error e => exact .inl ⟨rfl, fun f h => nomatch h⟩
      | failure e => exact .inl ⟨rfl, fun f h => nomatch h⟩
      | panic => exact .inl ⟨rfl, fun f h => nomatch h⟩
  unfold OsuFile.parseW OsuFile.parse
  generalize versionP s = r
  split
  · exact .inl ⟨rfl, fun f h => nomatch h⟩
  · exact .inl ⟨rfl, fun f h => nomatch h⟩
  · rename_i r' ws version
    by_cases h : ¬ (3 ≤ version.toNat ∧ version.toNat ≤ 14)
    · simp only [if_pos h]; exact .inl ⟨rfl, fun f h => nomatch h⟩
    · simp only [if_neg h]; exact rest _ _ _
  · rename_i h1 h2 h3
    split
    · exact absurd rfl (h1 _ _)
    · exact absurd rfl (h2 _ _)
    · exact absurd rfl (h3 _ _ _)
    · exact .inl ⟨rfl, fun f h => nomatch h⟩

/-- A file is opened exactly if a 64 bit build opens it and its hit objects can be held. -/
theorem C93_file {m : Nat} (hm : IsUsizeMax m) {s : Str} {f : OsuFile D} :
    OsuFile.parseW m s = .ok f ↔ OsuFile.parse s = .ok f ∧ fileFits m f := by
  rcases parse_narrow (D := D) hm s with ⟨h1, h2⟩ | ⟨l, e, e', h1, h2, h3⟩ | ⟨l, c, h1, h2⟩
  · rw [h1]; exact ⟨fun h => ⟨h, h2 f h⟩, fun h => h.1⟩
  · rw [h1, h2]; exact ⟨(nomatch ·), fun h => nomatch h.1⟩
  · rw [h1]; exact ⟨(nomatch ·), fun h => absurd h.2 (h2 f h.1).1⟩

/-- If it is not opened although a 64 bit build opens it, the error is that of the sample of a hit object. -/
theorem C93_file_error {m : Nat} (hm : IsUsizeMax m) {s : Str} {f : OsuFile D} (h : OsuFile.parse s = .ok f)
    (hf : ¬ fileFits m f) : ∃ l c, (OsuFile.parseW m s : Res _ (OsuFile D)) = .err ⟨l, .hitobjects c⟩ ∧ SampleErr c := by
  rcases parse_narrow (D := D) hm s with ⟨h1, h2⟩ | ⟨l, e, e', h1, h2, h3⟩ | ⟨l, c, h1, h2⟩
  · exact absurd (h2 f h) hf
  · rw [h2] at h; cases h
  · exact ⟨l, c, h1, (h2 f h).2⟩

/-- Wherever the outcomes differ, the smaller build gives an error: one in the hit objects, or that of a countdown or mode
that is too large, in a line where the 64 bit build gives an error too. In particular it panics nowhere else. -/
theorem C93_file_differs {m : Nat} (hm : IsUsizeMax m) {s : Str}
    (h : (OsuFile.parseW m s : Res _ (OsuFile D)) ≠ OsuFile.parse s) :
    (∃ l c, (OsuFile.parseW m s : Res _ (OsuFile D)) = .err ⟨l, .hitobjects c⟩) ∨
    ∃ l e e', (OsuFile.parseW m s : Res _ (OsuFile D)) = .err ⟨l, .general (.field e)⟩ ∧ TooLarge e ∧
      (OsuFile.parse s : Res _ (OsuFile D)) = .err ⟨l, .general (.field e')⟩ := by
  rcases parse_narrow (D := D) hm s with ⟨h1, h2⟩ | ⟨l, e, e', h1, h2, h3⟩ | ⟨l, c, h1, h2⟩
  · exact absurd h1 h
  · exact .inr ⟨l, e, e', h1, h3, h2⟩
  · exact .inl ⟨l, c, h1⟩

/-- Storyboard files, events and commands are read alike by all builds. -/
theorem C93_storyboard {m : Nat} (hm : IsUsizeMax m) (v : Nat) (s : Str) :
    (Osb.parseW m v s : Res _ (Option (Osb D))) = Osb.parse v s ∧
    (Events.parseW m v s : Res _ (List (Event D))) = Events.parse v s ∧
    (SB.Command.parseW m s : Res _ (SB.Command D)) = SB.Command.parse s :=
  ⟨Osb.parseW_eq hm v s, Ev.Events.parseVarsW_eq hm v [] s, SB.Command.parseW_eq hm s⟩

/-- The 64 bit build is the model of the other modules. -/
theorem C93_64_file (s : Str) : (OsuFile.parseW 18446744073709551615 s : Res _ (OsuFile D)) = OsuFile.parse s := by
  have hm : IsUsizeMax 18446744073709551615 := ⟨by decide, by decide⟩
  have hg : ∀ k v s, (GKey.parseW 18446744073709551615 k v s : Res _ (Option (k.Val D))) = GKey.parse k v s := by
    intro k v s; cases k <;> rfl
  have hgen : GeneralW 18446744073709551615 D = General D := by
    unfold GeneralW
    rw [show (GKey.parseW 18446744073709551615 : (k : GKey) → Nat → Str → Res FieldErr (Option (k.Val D))) = GKey.parse from
      funext fun k => funext fun v => funext fun s => hg k v s]
    rfl
  have hh : (OsuFile.handleW 18446744073709551615 : Nat → OsuFile D → _) = OsuFile.handle := by
    funext v f name body line
    unfold OsuFile.handleW
    by_cases h1 : name = c!"General"
    · subst h1
      rw [if_pos rfl]
      have : (GeneralW 18446744073709551615 D).fromStr v body = (General D).fromStr v body := by
        have e : ∀ S : Schema, GeneralW 18446744073709551615 D = S → HEq ((GeneralW 18446744073709551615 D).fromStr v body) (S.fromStr v body) := by
          rintro _ rfl; rfl
        exact eq_of_heq (e _ hgen)
      show some (processingLine FileErr.general ((GeneralW 18446744073709551615 D).fromStr v body) line >>= _) = _
      rw [this]; rfl
    · rw [if_neg h1]
      by_cases h2 : name = c!"Events"
      · subst h2
        rw [if_pos rfl]
        show some (processingLine FileErr.events (Events.parseVarsW 18446744073709551615 v [] body) line >>= _) = _
        rw [Ev.Events.parseVarsW_eq hm]; rfl
      · rw [if_neg h2]
        by_cases h3 : name = c!"HitObjects"
        · subst h3; rfl
        · rw [if_neg h3]
  unfold OsuFile.parseW OsuFile.parse OsuFile.parseRestW OsuFile.parseRest
  rw [hh]
  rfl

end

section
attribute [local instance] asciiUni

/-- A file with a sample index beyond 16 bits. -/
def wideFile : Str := c!"osu file format v14\n\n[General]\nMode: 1\n\n[HitObjects]\n1,2,3,1,0,0:0:70000:0:\n"

/-- The object in it. -/
def wideObject : HitObject Dec96 :=
  ⟨⟨.left ⟨false, 1, 0⟩, .left ⟨false, 2, 0⟩⟩, .left ⟨false, 3, 0⟩, .hitCircle, false, ⟨0⟩, HO.HitSound.ofU8 0,
    some ⟨.noCustom, .noCustom, .index 70000, ⟨none⟩, []⟩⟩

example : ∃ f : OsuFile Dec96, OsuFile.parse wideFile = .ok f ∧ f.hitobjects = some [wideObject] ∧
    OsuFile.parseW 4294967295 wideFile = .ok f ∧ fileFits 4294967295 f ∧ ¬ fileFits 65535 f ∧
    (OsuFile.parseW 65535 wideFile : Res _ (OsuFile Dec96)) = .err ⟨5, .hitobjects .invalidHitSample⟩ := by
  refine ⟨_, by rfl, by rfl, by rfl, ?_, ?_, by rfl⟩
  · intro l hl o ho
    cases hl
    rcases List.mem_singleton.1 ho with rfl
    exact ⟨fun h hh => by cases hh; exact ⟨trivial, trivial, show 70000 ≤ 4294967295 by decide⟩, fun e he => nomatch he⟩
  · intro h
    exact absurd (show 70000 ≤ 65535 from ((h _ rfl _ (List.mem_singleton.2 rfl)).1 _ rfl).2.2) (by decide)

/-- Different errors in the same line. -/
example : (OsuFile.parse c!"osu file format v14\n\n[General]\nMode: 70000\n" : Res _ (OsuFile Dec96)) =
      .err ⟨3, .general (.field .modeUnknown)⟩ ∧
    (OsuFile.parseW 65535 c!"osu file format v14\n\n[General]\nMode: 70000\n" : Res _ (OsuFile Dec96)) =
      .err ⟨3, .general (.field (.modeInt .posOverflow))⟩ := ⟨by rfl, by rfl⟩

end
end Osu
