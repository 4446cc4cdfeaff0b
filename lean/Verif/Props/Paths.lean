/-
C77: which file paths are equal.
-/
import Verif.Model.Paths
import Verif.Spec.Paths
import Verif.Model.Constructors
import Verif.Props.Frames
import Verif.Proof.Sep

namespace Osu
open SB Parser

theorem splitOnC_append_cons (c : Char) (a b : Str) : splitOnC c (a ++ c :: b) = splitOnC c a ++ splitOnC c b := by
  induction a with
  | nil => simp [splitOnC]
  | cons d a ih =>
    rw [List.cons_append, splitOnC, splitOnC, ih]
    split
    · rfl
    · cases h : splitOnC c a with
      | nil => exact absurd h (splitOnC_ne_nil c a)
      | cons x xs => rfl

theorem PathStep.parts {p q : Str} (h : PathStep p q) : pathParts p = pathParts q := by
  have hd : ∀ (a b b' : Str), (splitOnC '/' (a ++ '/' :: b)).head? = (splitOnC '/' (a ++ '/' :: b')).head? := by
    intro a b b'
    rw [splitOnC_append_cons, splitOnC_append_cons]
    cases h : splitOnC '/' a with
    | nil => exact absurd h (splitOnC_ne_nil _ a)
    | cons x xs => rfl
  have hr : ∀ (a b b' : Str), startsWith (a ++ '/' :: b) ['/'] = startsWith (a ++ '/' :: b') ['/'] := by
    intro a b b'
    cases a <;> simp [startsWith, List.isPrefixOf]
  cases h with
  | double a b =>
    unfold pathParts
    rw [hd a ('/' :: b) b, hr a ('/' :: b) b]
    simp [splitOnC_append_cons, splitOnC]
  | dot a b h =>
    unfold pathParts
    rw [hd a ('.' :: b) b, hr a ('.' :: b) b]
    rcases h with rfl | ⟨b', rfl⟩
    · simp [splitOnC_append_cons, splitOnC]
    · simp [splitOnC_append_cons, splitOnC]
  | last a h =>
    have h1 : (splitOnC '/' (q ++ ['/'])).head? = (splitOnC '/' q).head? := by
      rw [splitOnC_append_cons]
      cases h : splitOnC '/' q with
      | nil => exact absurd h (splitOnC_ne_nil _ q)
      | cons x xs => rfl
    have h2 : startsWith (q ++ ['/']) ['/'] = startsWith q ['/'] := by
      cases q with
      | nil => exact absurd rfl h
      | cons c q => simp [startsWith, List.isPrefixOf]
    unfold pathParts
    rw [h1, h2]
    simp [splitOnC_append_cons, splitOnC]

theorem SamePath.parts {p q : Str} (h : SamePath p q) : pathParts p = pathParts q := by
  induction h with
  | refl => rfl
  | step h _ ih => exact h.parts.trans ih
  | back h _ ih => exact h.parts.symm.trans ih

theorem SamePath.trans {p q r : Str} (h : SamePath p q) (h' : SamePath q r) : SamePath p r := by
  induction h with
  | refl => exact h'
  | step h _ ih => exact .step h (ih h')
  | back h _ ih => exact .back h (ih h')

theorem SamePath.symm {p q : Str} (h : SamePath p q) : SamePath q p := by
  induction h with
  | refl => exact .refl _
  | step h _ ih => exact ih.trans (.back h (.refl _))
  | back h _ ih => exact ih.trans (.step h (.refl _))

/-- Redundant parts are left out one after the other. -/
inductive PathSteps : Str → Str → Prop
  | refl (p : Str) : PathSteps p p
  | step {p q r : Str} (h : PathStep p q) (t : PathSteps q r) : PathSteps p r

theorem PathSteps.trans {p q r : Str} (h : PathSteps p q) (h' : PathSteps q r) : PathSteps p r := by
  induction h with
  | refl => exact h'
  | step h _ ih => exact .step h (ih h')

theorem PathSteps.same {p q : Str} (h : PathSteps p q) : SamePath p q := by
  induction h with
  | refl => exact .refl _
  | step h _ ih => exact .step h ih

/-- The names with a slash before each. -/
def slashed (ps : List Str) : Str := (ps.map (List.cons '/')).flatten

/-- The shortest spelling. -/
def PathParts.shw (x : PathParts) : Str :=
  if x.root then (if x.names = [] then c!"/" else slashed x.names)
  else if x.here then '.' :: slashed x.names
  else (slashed x.names).drop 1

theorem join_slashed (x : Str) (ps : List Str) : join ['/'] (x :: ps) = x ++ slashed ps := by
  induction ps generalizing x with
  | nil => simp [join, slashed]
  | cons y ps ih => rw [join_cons_cons, ih]; simp [slashed]

def isName (x : Str) : Bool := decide (x ≠ [] ∧ x ≠ c!".")

theorem slashed_head (ps : List Str) : slashed ps = [] ∨ ∃ b, slashed ps = '/' :: b := by
  cases ps with
  | nil => exact .inl rfl
  | cons x ps => exact .inr ⟨_, rfl⟩

theorem slashed_cons (x : Str) (ps : List Str) : slashed (x :: ps) = '/' :: (x ++ slashed ps) := rfl

theorem same_after (ps : List Str) : ∀ a, a ≠ [] → PathSteps (a ++ slashed ps) (a ++ slashed (ps.filter isName)) := by
  induction ps with
  | nil => intro a _; exact .refl _
  | cons x ps ih =>
    intro a ha
    have empty : PathSteps (a ++ '/' :: slashed ps) (a ++ slashed (ps.filter isName)) := by
      refine .trans ?_ (ih a ha)
      rcases slashed_head ps with h | ⟨b, h⟩
      · rw [h, List.append_nil]; exact .step (.last a ha) (.refl _)
      · rw [h]; exact .step (.double a b) (.refl _)
    by_cases h1 : x = []
    · subst h1
      exact empty
    by_cases h2 : x = c!"."
    · subst h2
      exact .step (.dot a _ (slashed_head ps)) empty
    · rw [List.filter_cons_of_pos (by simp [isName, h1, h2]), slashed_cons, slashed_cons]
      have := ih (a ++ '/' :: x) (by simp)
      simpa using this

theorem same_root (ps : List Str) (h : ps ≠ []) : PathSteps (slashed ps)
    (if ps.filter isName = [] then c!"/" else slashed (ps.filter isName)) := by
  induction ps with
  | nil => exact absurd rfl h
  | cons x ps ih =>
    have empty : PathSteps ('/' :: slashed ps) (if ps.filter isName = [] then c!"/" else slashed (ps.filter isName)) := by
      cases ps with
      | nil => exact .refl _
      | cons y ps => exact .step (.double [] _) (ih (by simp))
    by_cases h1 : x = []
    · subst h1
      exact empty
    by_cases h2 : x = c!"."
    · subst h2
      exact .step (.dot [] _ (slashed_head ps)) empty
    · rw [List.filter_cons_of_pos (by simp [isName, h1, h2]), if_neg (by simp), slashed_cons, slashed_cons]
      exact same_after ps ('/' :: x) (by simp)

theorem same_shw (p : Str) : PathSteps p (pathParts p).shw := by
  cases hs : splitOnC '/' p with
  | nil => exact absurd hs (splitOnC_ne_nil _ p)
  | cons x ps =>
    have hp : p = x ++ slashed ps := by rw [← join_slashed, ← hs, join_splitOnC]
    have hx : AllC (fun d => !(d == '/')) x := splitOnC_chars '/' p x (by rw [hs]; simp)
    have hn : (pathParts p).names = (x :: ps).filter isName := by
      simp only [pathParts, hs]; rfl
    have hh : (pathParts p).here = decide (x = c!".") := by
      simp [pathParts, hs]
    unfold PathParts.shw
    rw [hn, hh]
    by_cases h1 : x = []
    · subst h1
      cases ps with
      | nil => rw [hp]; exact .refl _
      | cons y ps =>
        have hr : (pathParts p).root = true := by rw [hp]; simp [pathParts, startsWith, slashed]
        rw [hr, if_pos rfl]
        have := same_root (y :: ps) (by simp)
        rw [← List.nil_append (slashed (y :: ps)), ← hp] at this
        exact this
    · have hr : (pathParts p).root = false := by
        cases x with
        | nil => exact absurd rfl h1
        | cons c x =>
          have : c ≠ '/' := by
            have := hx c (by simp)
            simpa using this
          rw [hp]; simp [pathParts, startsWith, List.isPrefixOf, Ne.symm this]
      rw [hr, if_neg (by simp)]
      by_cases h2 : x = c!"."
      · subst h2
        rw [hp]
        exact same_after ps c!"." (by simp)
      · rw [if_neg (by simpa using h2), List.filter_cons_of_pos (by simp [isName, h1, h2]), slashed_cons]
        rw [hp]
        exact same_after ps x h1

/-- Paths are equal exactly if they are spellings of the same path: they differ in slashes next to other ones, single dots
between slashes or at the end, and slashes at the end. -/
theorem C77_exact (p q : Str) : pathEq p q = true ↔ SamePath p q := by
  unfold pathEq
  rw [decide_eq_true_iff]
  refine ⟨fun h => ?_, SamePath.parts⟩
  have := (same_shw p).same
  rw [h] at this
  exact this.trans (same_shw q).same.symm

example : SamePath c!"a//b/./c/" c!"a/b/c" := (C77_exact _ _).1 (by decide)

/-- Each path is equal to exactly one path without redundant parts. -/
theorem C77_shortest (p : Str) : ∃ q, ShortPath q ∧ pathEq p q = true ∧ ∀ q', ShortPath q' → pathEq p q' = true → q' = q := by
  have short : ∀ (n : Nat) (p : Str), p.length ≤ n → ∃ q, ShortPath q ∧ SamePath p q := by
    intro n
    induction n with
    | zero =>
      intro p hp
      refine ⟨p, fun q h => ?_, .refl p⟩
      cases h <;> simp at hp
    | succ n ih =>
      intro p hp
      by_cases hs : ∃ q, PathStep p q
      · obtain ⟨q, hq⟩ := hs
        have : q.length < p.length := by cases hq <;> simp <;> omega
        obtain ⟨r, h1, h2⟩ := ih q (by omega)
        exact ⟨r, h1, .step hq h2⟩
      · exact ⟨p, fun q h => hs ⟨q, h⟩, .refl p⟩
  have stuck : ∀ {p}, ShortPath p → p = (pathParts p).shw := by
    intro p hp
    have := same_shw p
    generalize (pathParts p).shw = q at this
    cases this with
    | refl => rfl
    | step h => exact absurd h (hp _)
  obtain ⟨q, h1, h2⟩ := short _ p (Nat.le_refl _)
  refine ⟨q, h1, (C77_exact p q).2 h2, fun q' h h' => ?_⟩
  rw [stuck h, stuck h1, ← of_decide_eq_true h', h2.parts]

/-- Equal paths give the same names of frames, and a sprite can be made of both or of neither. -/
theorem C77_same_use {p q : Str} (h : pathEq p q = true) (n : Nat) : frameFileNames p n = frameFileNames q n ∧
    ((Sprite.new p : Option (ObjectType D)) = none ↔ (Sprite.new q : Option (ObjectType D)) = none) := by
  have h : pathParts p = pathParts q := of_decide_eq_true h
  constructor
  · have : pathFileName p = pathFileName q := by
      have := congrArg PathParts.names h
      unfold pathParts at this
      unfold pathFileName
      dsimp only at this
      rw [this]
    unfold frameFileNames
    rw [this]
  · have : startsWith p ['/'] = startsWith q ['/'] := congrArg PathParts.root h
    unfold Sprite.new
    rw [this]
    split <;> simp

/-- Equality is an equivalence. -/
theorem C77_equivalence : (∀ p, pathEq p p = true) ∧ (∀ p q, pathEq p q = true → pathEq q p = true) ∧
    ∀ p q r, pathEq p q = true → pathEq q r = true → pathEq p r = true := by
  simp only [C77_exact]
  exact ⟨.refl, fun _ _ => .symm, fun _ _ _ => .trans⟩

example : pathEq c!"a/b/c" c!"a//b/./c/" = true := C77_equivalence.2.1 c!"a//b/./c/" c!"a/b/c" (by decide)

/-- Equal objects need not have the same text: what the user wrote is kept. -/
theorem C77_false_text : ∃ (s t : Str) (a b : Object Dec96), Object.parse s = .ok a ∧ Object.parse t = .ok b ∧
    a.objectType.same (fun d e => decide (d = e)) b.objectType = true ∧ a.objectType ≠ b.objectType ∧
    ∃ p q, a.objectType = .sprite p ∧ b.objectType = .sprite q ∧ FilePath.toStr p ≠ FilePath.toStr q :=
  ⟨c!"Sprite,Pass,Centre,sb/a.png,1,2", c!"Sprite,Pass,Centre,sb//./a.png,1,2", _, _, rfl, rfl, by decide, by decide, _, _, rfl, rfl, by decide⟩

/-- Nor need they be written with quotes both: an equal path can end with something else than the quote. -/
theorem C77_false_quotes : ∃ p q : Str, pathEq p q = true ∧ FilePath.toStr p = p ∧ FilePath.toStr q = '"' :: q ++ ['"'] :=
  ⟨c!"\"a b\"", c!"\"a b\"/", by decide, by decide, by decide⟩

example : SamePath c!"sb//./a/." c!"sb/a" :=
  .step (.double c!"sb" c!"./a/.") (.step (.dot c!"sb" c!"/a/." (.inr ⟨_, rfl⟩)) (.step (.double c!"sb" c!"a/.")
    (.step (.dot c!"sb/a" [] (.inl rfl)) (.step (.last c!"sb/a" (by decide)) (.refl _)))))
example : pathEq c!"./a" c!"a" = false ∧ pathEq c!"/" c!"//" = true ∧ pathEq [] c!"/" = false ∧ pathEq c!"a/../b" c!"b" = false := by decide
example : pathEq c!"sb//run.png" c!"sb/run.png/" = true ∧ frameFileNames c!"sb//run.png" 2 = some [c!"run0.png", c!"run1.png"] := by decide

example : frameFileNames c!"sb//run.png" 2 = frameFileNames c!"sb/run.png/" 2 ∧
    ((Sprite.new c!"sb//run.png" : Option (ObjectType Dec96)) = none ↔ (Sprite.new c!"sb/run.png/" : Option (ObjectType Dec96)) = none) :=
  C77_same_use (by decide) 2
example : ∃ q, ShortPath q ∧ pathEq c!"sb//./a/." q = true ∧ ∀ q', ShortPath q' → pathEq c!"sb//./a/." q' = true → q' = q :=
  C77_shortest _

end Osu
