/-
C94: hashes of loaded files and of the values in them (`Hash`).
-/
import Verif.Proof.Hash
import Verif.Props.Equality

namespace Osu
open SB Ev
open DecSame (norm)

variable {D : Type} [DecSame D]

section Paths

theorem noRoot_of_pathEq {p q : Str} (h : pathEq p q = true) : noRoot p = noRoot q := by
  rw [noRoot, of_decide_eq_true h, noRoot]

theorem noRoot_noRoot (p : Str) : noRoot (noRoot p) = noRoot p := by
  rw [← noRoot_iff]
  have hok := pathChunks_ok p
  rw [noRoot_eq]
  by_cases h0 : pathChunks [] p = []
  · rw [h0]
    simp [join, pathChunks]
  · have hs := splitOnC_join h0 fun c hc => (hok c hc).2
    obtain ⟨h, t, h1, h2⟩ := pathChunks_split _ (join ['/'] (pathChunks [] p)) [] (Nat.le_refl _)
    rw [h2]
    rw [hs] at h1
    have ht : wholes t = t := by
      rw [wholes, List.filter_eq_self]
      intro x hx
      have hx' : x ∈ (pathParts p).names := by
        have heq := pathChunks_eq p
        rw [h1] at heq
        split at heq
        · simp only [List.singleton_append, List.cons.injEq] at heq
          rw [← heq.2]; exact hx
        · rw [List.nil_append] at heq
          rw [← heq]; exact List.mem_cons_of_mem _ hx
      simp only [pathParts, List.mem_filter] at hx'
      exact hx'.2
    have hh : h ≠ [] := (hok h (by rw [h1]; simp)).1
    rw [ht, h1]
    simp [hh]

theorem noRoot_rootless (p : Str) : (pathParts (noRoot p)).root = false := by
  rw [noRoot_eq]
  have hok := pathChunks_ok p
  cases hc : pathChunks [] p with
  | nil => rfl
  | cons c l =>
    rw [hc] at hok
    obtain ⟨h1, h2⟩ := hok c (by simp)
    cases c with
    | nil => exact absurd rfl h1
    | cons d c =>
      have hd : d ≠ '/' := by simpa using h2.of_cons.1
      rw [join_slashed]
      simp only [pathParts, startsWith, List.cons_append, List.isPrefixOf_cons₂, Bool.and_eq_false_iff, beq_eq_false_iff_ne]
      exact .inl (Ne.symm hd)

/-- Paths with a slash at the start, and paths without, are told apart by their parts exactly as `==` does. -/
theorem chunks_same {p q : Str} (h : (pathParts p).root = (pathParts q).root) :
    pathChunks [] p = pathChunks [] q ↔ pathEq p q = true := by
  rw [pathEq, decide_eq_true_eq, pathChunks_eq, pathChunks_eq]
  constructor
  · intro he
    have hn : ∀ r : Str, c!"." ∉ (pathParts r).names := by
      intro r hr
      simp [pathParts] at hr
    have hpq : (pathParts p).here = (pathParts q).here ∧ (pathParts p).names = (pathParts q).names := by
      cases hp : (pathParts p).here <;> cases hq : (pathParts q).here <;> simp only [hp, hq, if_true, if_false, List.nil_append,
        Bool.false_eq_true, List.singleton_append] at he
      · exact ⟨rfl, he⟩
      · exact absurd (by rw [he]; simp) (hn p)
      · exact absurd (by rw [← he]; simp) (hn q)
      · exact ⟨rfl, (List.cons.inj he).2⟩
    cases h1 : pathParts p
    cases h2 : pathParts q
    rw [h1, h2] at h hpq
    simp only at h hpq
    rw [h, hpq.1, hpq.2]
  · intro he
    rw [he]

theorem noRoot_eq_iff (p q : Str) : pathEq (noRoot p) (noRoot q) = true ↔ noRoot p = noRoot q := by
  rw [← chunks_same (by rw [noRoot_rootless, noRoot_rootless]), noRoot_iff, noRoot_noRoot, noRoot_noRoot]

theorem shortPath_noRoot (p : Str) : shortPath (noRoot p) = noRoot p := by
  have hr := noRoot_rootless p
  rw [(same_shw (noRoot p)).same.parts] at hr
  have h : (shortPath (noRoot p)).dropWhile (· = '/') = shortPath (noRoot p) := by
    unfold shortPath
    cases hs : (pathParts (noRoot p)).shw with
    | nil => rfl
    | cons c l =>
      rw [hs] at hr
      simp only [pathParts, startsWith, List.isPrefixOf_cons₂, List.isPrefixOf_nil_left, Bool.and_true, beq_eq_false_iff_ne] at hr
      simp [Ne.symm hr]
  rw [← h]
  exact noRoot_noRoot p

end Paths

/-- Equal paths are hashed in the same way. Paths that are hashed in the same way are equal if both start with a slash, or both
do not. -/
theorem C94_path (p q : Str) : (pathEq p q = true → pathFeed (D := D) p = pathFeed q) ∧
    ((startsWith p ['/'] = startsWith q ['/']) → pathFeed (D := D) p = pathFeed q → pathEq p q = true) := by
  rw [pathFeed_reads.iff]
  refine ⟨noRoot_of_pathEq, fun h h' => ?_⟩
  rw [← chunks_same h, noRoot_iff]
  exact h'

example : pathFeed (D := Dec96) c!"a//b/./c" = [.bytes c!"a", .bytes c!"b", .bytes c!"c", .int 64 6052837899185946624] ∧
    pathFeed (D := Dec96) c!"a//b/./c" = pathFeed c!"a/b/c/" :=
  ⟨by rw [pathFeed, pathChunks_eq]; rfl, (C94_path _ _).1 (by decide)⟩

/-- Whether a path starts with a slash is not hashed. -/
theorem C94_false_path : ∃ p q : Str, pathFeed (D := D) p = pathFeed q ∧ pathEq p q = false := 
  ⟨c!"/a", c!"a", pathFeed_reads.iff _ _ |>.2 (by decide), by decide⟩

/-- Numbers, positions, timing points and hit objects: the calls are the same exactly if the values are equal. -/
theorem C94_values : (∀ a b : Decimal D, a.feed = b.feed ↔ a.same b = true) ∧ (∀ a b : Position D, a.feed = b.feed ↔ a.same b = true) ∧
    (∀ a b : TimingPoint D, a.feed = b.feed ↔ a.same b = true) ∧ ∀ a b : HitObject D, a.feed = b.feed ↔ a.same b = true := by
  refine ⟨fun a b => ?_, fun a b => ?_, fun a b => ?_, fun a b => ?_⟩
  · rw [Decimal.feed_reads.iff, Decimal.same_iff DecSame.eq_iff]
  · rw [Position.feed_reads.iff, Position.same_iff DecSame.eq_iff]
  · rw [TimingPoint.feed_reads.iff, TimingPoint.same_iff DecSame.eq_iff]
  · rw [HitObject.feed_reads.iff, HitObject.same_iff DecSame.eq_iff]

example : (Decimal.left (⟨false, 10, 1⟩ : Dec96)).feed = (Decimal.left ⟨false, 1, 0⟩).feed ∧
    (Decimal.left (⟨false, 10, 1⟩ : Dec96)).feed ≠ (Decimal.right c!"1").feed := by
  rw [C94_values.1, Ne, C94_values.1]
  decide

/-- Any hasher gives equal events the same hash, and equal storyboards. -/
theorem C94_storyboard (h : AnyHasher D) : (∀ a b : Event D, a.same b = true → h.hash a.feed = h.hash b.feed) ∧
    ∀ a b : Osb D, a.same b = true → h.hash a.feed = h.hash b.feed := by
  have hd : (fun a : D => id (norm a)) = norm := rfl
  have hp : (fun a : Str => (shortPath a).dropWhile (· = '/')) = noRoot := rfl
  constructor
  · intro a b hs
    have := (Ev.Event.same_iff DecSame.eq_iff shortPath_iff a b).1 hs
    have := congrArg (Ev.Event.respell id (List.dropWhile (· = '/'))) this
    rw [Ev.Event.respell_respell, Ev.Event.respell_respell, hd, hp, ← Ev.Event.feed_reads.iff] at this
    rw [this]
  · intro a b hs
    have := (Osb.same_iff DecSame.eq_iff shortPath_iff a b).1 hs
    have := congrArg (Osb.respell id (List.dropWhile (· = '/'))) this
    rw [Osb.respell_respell, Osb.respell_respell, hd, hp, ← Osb.feed_reads.iff] at this
    rw [this]

example (h : AnyHasher Dec96) : h.hash (Event.audioSample (D := Dec96) ⟨1, .background, c!"a//b", ⟨7⟩⟩).feed =
    h.hash (Event.audioSample (D := Dec96) ⟨1, .background, c!"a/b", ⟨7⟩⟩).feed :=
  (C94_storyboard h).1 _ _ (by decide)

/-- The calls for two storyboards are the same exactly if they are equal once the slash at the start of each path is left out. -/
theorem C94_exact_storyboard (a b : Osb D) : a.feed = b.feed ↔ (a.respell id noRoot).same (b.respell id noRoot) = true := by
  rw [Osb.feed_reads.iff, Osb.same_iff DecSame.eq_iff shortPath_iff, Osb.respell_respell, Osb.respell_respell]
  simp only [shortPath_noRoot, id]

example : (⟨none, some [.object ⟨.fail, ⟨.inl .centre, false⟩, ⟨.left ⟨false, 10, 1⟩, .right c!"x"⟩, .sprite c!"a//b", []⟩]⟩ : Osb Dec96).feed =
    (⟨none, some [.object ⟨.fail, ⟨.inl .centre, false⟩, ⟨.left ⟨false, 1, 0⟩, .right c!"x"⟩, .sprite c!"/a/b", []⟩]⟩ : Osb Dec96).feed :=
  (C94_exact_storyboard _ _).2 (by decide)

variable [DecLib D]

/-- Any hasher gives equal files the same hash. -/
theorem C94_file (h : AnyHasher D) {f g : OsuFile D} (hs : f.same g = true) : h.hash f.feed = h.hash g.feed := by
  have hd : (fun a : D => id (norm a)) = norm := rfl
  have hp : (fun a : Str => (shortPath a).dropWhile (· = '/')) = noRoot := rfl
  have := (C84_exact DecSame.eq_iff shortPath_iff f g).1 hs
  have := congrArg (OsuFile.respell id (List.dropWhile (· = '/'))) this
  rw [OsuFile.respell_respell, OsuFile.respell_respell, hd, hp, ← OsuFile.feed_reads.iff] at this
  rw [this]

example (h : AnyHasher Dec96) : h.hash exampleFile.feed = h.hash (exampleFile.respell norm shortPath).feed :=
  C94_file h (C84_normal exampleFile).1

/-- The calls for two files are the same exactly if the files are equal once the slash at the start of each path is left out. -/
theorem C94_exact (f g : OsuFile D) : f.feed = g.feed ↔ (f.respell id noRoot).same (g.respell id noRoot) = true := by
  rw [OsuFile.feed_reads.iff, C84_exact DecSame.eq_iff shortPath_iff, OsuFile.respell_respell, OsuFile.respell_respell]
  simp only [shortPath_noRoot, id]

example : exampleFile.feed = (exampleFile.respell norm shortPath).feed ↔
    (exampleFile.respell id noRoot).same ((exampleFile.respell norm shortPath).respell id noRoot) = true := C94_exact _ _

/-- Files one after the other: no list of files makes the calls of another one, but for the slashes. -/
theorem C94_many (l m : List (OsuFile D)) : listFeed OsuFile.feed l = listFeed OsuFile.feed m ↔
    l.map OsuFile.feed = m.map OsuFile.feed := by
  have h : Reads (OsuFile.feed (D := D)) OsuFile.feed := fun a b x y => by
    rw [OsuFile.feed_reads a b x y, OsuFile.feed_reads.iff]
  rw [(listFeed_reads h).iff]

example : listFeed OsuFile.feed [exampleFile] ≠ listFeed OsuFile.feed [exampleFile, exampleFile] := by
  rw [Ne, C94_many]
  simp

section
attribute [local instance] asciiUni

/-- It is false that files which are not equal are told apart by what is hashed. -/
theorem C94_false_different : ∃ f g : OsuFile Dec96, OsuFile.parse c!"osu file format v14\n[General]\nAudioFilename: /a" = .ok f ∧
    OsuFile.parse c!"osu file format v14\n[General]\nAudioFilename: a" = .ok g ∧ f.same g = false ∧ f.feed = g.feed := by
  obtain ⟨f, hf⟩ := Res.of_isOk (r := (OsuFile.parse c!"osu file format v14\n[General]\nAudioFilename: /a" : Res _ (OsuFile Dec96))) (by decide)
  obtain ⟨g, hg⟩ := Res.of_isOk (r := (OsuFile.parse c!"osu file format v14\n[General]\nAudioFilename: a" : Res _ (OsuFile Dec96))) (by decide)
  have h : (OsuFile.parse c!"osu file format v14\n[General]\nAudioFilename: /a" >>= fun f : OsuFile Dec96 =>
      OsuFile.parse c!"osu file format v14\n[General]\nAudioFilename: a" >>= fun g : OsuFile Dec96 =>
      Res.ok (f.same g, (f.respell id noRoot).same (g.respell id noRoot)) : Res _ (Bool × Bool)) = .ok (false, true) := by decide
  rw [hf, hg] at h
  have h := Res.ok.inj h
  simp only [Prod.mk.injEq] at h
  exact ⟨f, g, hf, hg, h.1, (C94_exact f g).2 h.2⟩

/-- The hash is that of the values: files loaded from texts that differ in the spelling of a number and of a path have the same. -/
example (h : AnyHasher Dec96) : ∃ f g : OsuFile Dec96, OsuFile.parse c!"osu file format v14\n[General]\nAudioFilename: a//b\nStackLeniency: 0.70" = .ok f ∧
    OsuFile.parse c!"osu file format v14\n[General]\nAudioFilename: a/b\nStackLeniency: 0.7" = .ok g ∧ h.hash f.feed = h.hash g.feed := by
  obtain ⟨f, hf⟩ := Res.of_isOk (r := (OsuFile.parse
    c!"osu file format v14\n[General]\nAudioFilename: a//b\nStackLeniency: 0.70" : Res _ (OsuFile Dec96))) (by decide)
  obtain ⟨g, hg⟩ := Res.of_isOk (r := (OsuFile.parse
    c!"osu file format v14\n[General]\nAudioFilename: a/b\nStackLeniency: 0.7" : Res _ (OsuFile Dec96))) (by decide)
  have h : (OsuFile.parse c!"osu file format v14\n[General]\nAudioFilename: a//b\nStackLeniency: 0.70" >>= fun f : OsuFile Dec96 =>
      OsuFile.parse c!"osu file format v14\n[General]\nAudioFilename: a/b\nStackLeniency: 0.7" >>= fun g : OsuFile Dec96 =>
      Res.ok (f.same g) : Res _ Bool) = .ok true := by decide
  rw [hf, hg] at h
  exact ⟨f, g, hf, hg, C94_file _ (Res.ok.inj h)⟩

end

end Osu
