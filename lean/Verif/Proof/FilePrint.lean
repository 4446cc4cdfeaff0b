/-
Writing a file, and reading back what was written.
-/
import Verif.Proof.FileText

namespace Osu
open Parser Ev

section
variable {D : Type} [DecLib D] [UniLib]

theorem pushSection_eq {α : Type} {name s : Str} {x : Option α} {shw : α → Option (Option Str)} {l : List (Str × Str)} :
    pushSection name x shw = some l ↔ ∃ t : Option Str, l = (t.map fun t => (name, t)).toList ∧
      ((x = none ∧ t = none) ∨ ∃ a, x = some a ∧ shw a = some t) := by
  unfold pushSection
  cases x with
  | none =>
    constructor
    · intro h; cases h; exact ⟨none, rfl, .inl ⟨rfl, rfl⟩⟩
    · rintro ⟨t, rfl, ⟨-, rfl⟩ | ⟨a, h, -⟩⟩
      · rfl
      · cases h
  | some a =>
    simp only [Option.map_eq_some_iff]
    constructor
    · rintro ⟨t, h, rfl⟩
      exact ⟨t, by cases t <;> rfl, .inr ⟨a, rfl, h⟩⟩
    · rintro ⟨t, rfl, ⟨h, -⟩ | ⟨b, h, h'⟩⟩
      · cases h
      · cases h; exact ⟨t, h', by cases t <;> rfl⟩

theorem push_none {α : Type} (name : Str) (shw : α → Option (Option Str)) : pushSection name none shw = some [] := rfl

/-- What is pushed for a section. -/
def SName.push (f : OsuFile D) : SName → Option (List (Str × Str))
  | .general => pushSection c!"General" f.general fun x => some (some ((General D).toStr f.version x))
  | .editor => pushSection c!"Editor" f.editor fun x => some (some ((Editor D).toStr f.version x))
  | .metadata => pushSection c!"Metadata" f.metadata fun x => some (some (Metadata.toStr f.version x))
  | .difficulty => pushSection c!"Difficulty" f.difficulty fun x => some (some ((Difficulty D).toStr f.version x))
  | .events => pushSection c!"Events" f.events fun x => (Events.shw f.version x).map some
  | .timingPoints => pushSection c!"TimingPoints" f.timingPoints fun x => (TimingPoints.shw f.version x).map some
  | .colours => pushSection c!"Colours" f.colours fun x => some (Colours.shw f.version x)
  | .hitobjects => pushSection c!"HitObjects" f.hitobjects fun x => (HitObjects.shw f.version x).map some

theorem push_iff {f : OsuFile D} {n : SName} {l : List (Str × Str)} :
    n.push f = some l ↔ ∃ t, SectPrints f t n ∧ l = (t.map fun t => (n.text, t)).toList := by
  have plain : ∀ {α : Type} {name : Str} {x : Option α} {g : α → Str}, pushSection name x (fun x => some (some (g x))) = some l ↔
      ∃ t, t = x.map g ∧ l = (t.map fun t => (name, t)).toList := by
    intro α name x g
    cases x with
    | none => simp [pushSection, eq_comm]
    | some a => simp [pushSection, eq_comm]
  have pan : ∀ {α : Type} {name : Str} {x : Option α} {g : α → Option Str}, pushSection name x (fun x => (g x).map some) = some l ↔
      ∃ t, ((x = none ∧ t = none) ∨ ∃ a s, x = some a ∧ g a = some s ∧ t = some s) ∧ l = (t.map fun t => (name, t)).toList := by
    intro α name x g
    cases x with
    | none =>
      constructor
      · intro h; cases h; exact ⟨none, .inl ⟨rfl, rfl⟩, rfl⟩
      · rintro ⟨t, ⟨-, rfl⟩ | ⟨a, s, h, -⟩, rfl⟩
        · rfl
        · cases h
    | some a =>
      cases hg : g a with
      | none =>
        constructor
        · intro h; simp [pushSection, hg] at h
        · rintro ⟨t, ⟨h, -⟩ | ⟨a', s, h, h', -⟩, rfl⟩
          · cases h
          · cases h; rw [hg] at h'; cases h'
      | some s =>
        constructor
        · intro h
          simp only [pushSection, hg, Option.map_some, Option.some.injEq] at h
          exact ⟨some s, .inr ⟨a, s, rfl, hg, rfl⟩, h.symm⟩
        · rintro ⟨t, ⟨h, -⟩ | ⟨a', s', h, h', rfl⟩, rfl⟩
          · cases h
          · cases h; rw [hg] at h'; cases h'
            simp [pushSection, hg]
  cases n
  case general => exact plain
  case editor => exact plain
  case metadata => exact plain
  case difficulty => exact plain
  case events => exact pan
  case timingPoints => exact pan
  case hitobjects => exact pan
  case colours =>
    show pushSection c!"Colours" f.colours (fun x => some (Colours.shw f.version x)) = some l ↔ _
    unfold SectPrints
    cases f.colours with
    | none => simp [pushSection, eq_comm]
    | some a =>
      simp only [pushSection, Option.map_some, Option.some.injEq, Option.bind_some]
      cases h : Colours.shw f.version a <;> simp [eq_comm, SName.text]

theorem shw_push (f : OsuFile D) : f.shw = (SName.push f .general >>= fun a => SName.push f .editor >>= fun b =>
    SName.push f .metadata >>= fun c => SName.push f .difficulty >>= fun d => SName.push f .events >>= fun e =>
    SName.push f .timingPoints >>= fun g => SName.push f .colours >>= fun h => SName.push f .hitobjects >>= fun i =>
    some (fileText (natToStr f.version) (a ++ b ++ c ++ d ++ e ++ g ++ h ++ i))) := rfl

theorem listed_eq (p : SName → Option Str) : listed p =
    ((p .general).map fun t => (SName.text .general, t)).toList ++ ((p .editor).map fun t => (SName.text .editor, t)).toList ++
    ((p .metadata).map fun t => (SName.text .metadata, t)).toList ++ ((p .difficulty).map fun t => (SName.text .difficulty, t)).toList ++
    ((p .events).map fun t => (SName.text .events, t)).toList ++ ((p .timingPoints).map fun t => (SName.text .timingPoints, t)).toList ++
    ((p .colours).map fun t => (SName.text .colours, t)).toList ++ ((p .hitobjects).map fun t => (SName.text .hitobjects, t)).toList := by
  have : ∀ (ns : List SName), ns.filterMap (fun n => (p n).map fun t => (n.text, t)) =
      ns.flatMap fun n => ((p n).map fun t => (n.text, t)).toList := by
    intro ns
    induction ns with
    | nil => rfl
    | cons n ns ih =>
      rw [List.flatMap_cons, ← ih]
      cases h : p n with
      | none => simp [h]
      | some t => simp [h]
  unfold listed
  rw [this]
  simp [SName.all, List.append_assoc]

/-- What is written for a file value. -/
theorem shw_iff {f : OsuFile D} {s : Str} : f.shw = some s ↔
    ∃ p : SName → Option Str, (∀ n, SectPrints f (p n) n) ∧ s = fileText (natToStr f.version) (listed p) := by
  rw [shw_push]
  simp only [Option.bind_eq_bind, Option.bind_eq_some_iff, push_iff]
  constructor
  · rintro ⟨_, ⟨t1, h1, rfl⟩, _, ⟨t2, h2, rfl⟩, _, ⟨t3, h3, rfl⟩, _, ⟨t4, h4, rfl⟩, _, ⟨t5, h5, rfl⟩, _, ⟨t6, h6, rfl⟩,
      _, ⟨t7, h7, rfl⟩, _, ⟨t8, h8, rfl⟩, h⟩
    cases h
    refine ⟨fun n => match n with
      | .general => t1 | .editor => t2 | .metadata => t3 | .difficulty => t4 | .events => t5 | .timingPoints => t6
      | .colours => t7 | .hitobjects => t8, ?_, by rw [listed_eq]⟩
    intro n
    cases n
    · exact h1
    · exact h2
    · exact h3
    · exact h4
    · exact h5
    · exact h6
    · exact h7
    · exact h8
  · rintro ⟨p, h, rfl⟩
    exact ⟨_, ⟨_, h .general, rfl⟩, _, ⟨_, h .editor, rfl⟩, _, ⟨_, h .metadata, rfl⟩, _, ⟨_, h .difficulty, rfl⟩, _, ⟨_, h .events, rfl⟩,
      _, ⟨_, h .timingPoints, rfl⟩, _, ⟨_, h .colours, rfl⟩, _, ⟨_, h .hitobjects, rfl⟩, by rw [listed_eq]⟩

theorem listed_mem {p : SName → Option Str} {b : Str × Str} : b ∈ listed p ↔ ∃ n : SName, p n = some b.2 ∧ n.text = b.1 := by
  unfold listed
  rw [List.mem_filterMap]
  constructor
  · rintro ⟨n, -, h⟩
    obtain ⟨t, h1, rfl⟩ := Option.map_eq_some_iff.1 h
    exact ⟨n, h1, rfl⟩
  · rintro ⟨n, h1, h2⟩
    refine ⟨n, by cases n <;> decide, ?_⟩
    rw [h1]
    simp [h2]

theorem listed_names (p : SName → Option Str) : ((listed p).map Prod.fst).Sublist (SName.all.map SName.text) := by
  unfold listed
  generalize SName.all = ns
  induction ns with
  | nil => exact .slnil
  | cons n ns ih =>
    cases h : p n with
    | none => rw [List.filterMap_cons_none (by simp [h])]; exact .cons _ ih
    | some t => rw [List.filterMap_cons_some (b := (n.text, t)) (by simp [h])]; exact .cons_cons _ ih

theorem listed_nodup (p : SName → Option Str) : ((listed p).map Prod.fst).Nodup :=
  (listed_names p).nodup (by decide)

theorem known_nat {v : Nat} (h : 3 ≤ v ∧ v ≤ 14) : KnownVersion (natToStr v) v :=
  ⟨((parseUnsigned_ok_iff v _ _).1 (parseUnsigned_natToStr v v (Nat.le_refl _))).1, h⟩

theorem SName.nameOK (n : SName) : NameOK n.text := by
  cases n <;> (unfold NameOK; decide)

/-- If every text written for a section of `f` is one that can stand in a file and is read as the section of `g`, and `g`
has no other sections, then the text of the file is read as `g`. -/
theorem read_back {f g : OsuFile D} {p : SName → Option Str} (hv : 3 ≤ f.version ∧ f.version ≤ 14) (hp : ∀ n, SectPrints f (p n) n)
    (hw : ∀ n t, p n = some t → WellText t ∧ SectReads f.version g t n) (ha : ∀ n, p n = none → SectAbsent g n)
    (h1 : g.version = f.version) (h2 : g.osb = none) : ∃ s, f.shw = some s ∧ OsuFile.parse s = .ok g := by
  refine ⟨_, shw_iff.2 ⟨p, hp, rfl⟩, ?_⟩
  rw [blocks_read ?_ ?_ (known_nat hv)]
  · refine ⟨h1, h2, listed_nodup p, ?_, ?_⟩
    · intro b hb
      obtain ⟨n, hn, e⟩ := listed_mem.1 hb
      exact ⟨n, e, (hw n b.2 hn).2⟩
    · intro n hn
      refine ha n ?_
      cases h : p n with
      | none => rfl
      | some t => exact absurd (List.mem_map.2 ⟨(n.text, t), listed_mem.2 ⟨n, h, rfl⟩, rfl⟩) hn
  · intro b hb
    obtain ⟨n, hn, e⟩ := listed_mem.1 hb
    exact (hw n b.2 hn).1
  · intro b hb
    obtain ⟨n, hn, e⟩ := listed_mem.1 hb
    rw [← e]; exact n.nameOK

end

end Osu
