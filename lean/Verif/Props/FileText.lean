/-
C43 section order, C41 round trip of a whole file, C42 saving a file again.
-/
import Verif.Proof.FileStable

namespace Osu
open Parser Ev

section
variable {D : Type} [DecLib D] [UniLib]

/-! ## C43: the order of sections -/

theorem SameBody.ne_nil {b c : Str} (h : SameBody b c) : b ≠ [] ↔ c ≠ [] := by
  induction h with
  | refl => exact Iff.rfl
  | more hw hb hn => exact ⟨fun _ h => by simp at h; exact hn h.1, fun _ => hn⟩
  | less hw hb hn => exact ⟨fun _ => hn, fun _ h => by simp at h; exact hn h.1⟩
  | trans _ _ i1 i2 => exact i1.trans i2

theorem SameBody.reads {b c : Str} (h : SameBody b c) {v : Nat} {f : OsuFile D} {n : SName} :
    SectReads v f b n ↔ SectReads v f c n := by
  induction h with
  | refl => exact Iff.rfl
  | more hw hb hn => exact (sectReads_tail hw hb).symm
  | less hw hb hn => exact sectReads_tail hw hb
  | trans _ _ i1 i2 => exact i1.trans i2

theorem SameSects.names {xs ys : List Sect} (h : SameSects xs ys) : xs.map Sect.name = ys.map Sect.name := by
  induction h with
  | nil => rfl
  | cons hn _ _ ih => rw [List.map_cons, List.map_cons, hn, ih]

theorem SameSects.left {xs ys : List Sect} (h : SameSects xs ys) {x : Sect} (hx : x ∈ xs) :
    ∃ y ∈ ys, x.name = y.name ∧ SameBody x.body y.body := by
  induction h with
  | nil => cases hx
  | @cons a b as bs hn hb _ ih =>
    rcases List.mem_cons.1 hx with rfl | hx
    · exact ⟨b, by simp, hn, hb⟩
    · obtain ⟨y, hy, h⟩ := ih hx
      exact ⟨y, List.mem_cons_of_mem _ hy, h⟩

theorem SameSects.right {xs ys : List Sect} (h : SameSects xs ys) {y : Sect} (hy : y ∈ ys) :
    ∃ x ∈ xs, x.name = y.name ∧ SameBody x.body y.body := by
  induction h with
  | nil => cases hy
  | @cons a b as bs hn hb _ ih =>
    rcases List.mem_cons.1 hy with rfl | hy
    · exact ⟨a, by simp, hn, hb⟩
    · obtain ⟨x, hx, h⟩ := ih hy
      exact ⟨x, List.mem_cons_of_mem _ hx, h⟩

theorem fileReads_perm {v : Nat} {xs ys zs : List Sect} (hp : xs.Perm ys) (hs : SameSects ys zs) {f : OsuFile D}
    (h : FileReads v xs f) : FileReads v zs f := by
  obtain ⟨h1, h2, h3, h4, h5⟩ := h
  have hn : (xs.map Sect.name).Perm (zs.map Sect.name) := by rw [← hs.names]; exact hp.map _
  refine ⟨h1, h2, hn.nodup_iff.1 h3, ?_, fun n hm => h5 n fun hx => hm (hn.mem_iff.1 hx)⟩
  intro z hz
  obtain ⟨y, hy, e, hb⟩ := hs.right hz
  obtain ⟨g1, n, g2, g3⟩ := h4 y (hp.mem_iff.2 hy)
  exact ⟨hb.ne_nil.1 g1, n, g2.trans e, hb.reads.1 g3⟩

theorem fileReads_perm' {v : Nat} {xs ys zs : List Sect} (hp : xs.Perm ys) (hs : SameSects ys zs) {f : OsuFile D}
    (h : FileReads v zs f) : FileReads v xs f := by
  obtain ⟨h1, h2, h3, h4, h5⟩ := h
  have hn : (xs.map Sect.name).Perm (zs.map Sect.name) := by rw [← hs.names]; exact hp.map _
  refine ⟨h1, h2, hn.nodup_iff.2 h3, ?_, fun n hm => h5 n fun hx => hm (hn.mem_iff.2 hx)⟩
  intro x hx
  obtain ⟨z, hz, e, hb⟩ := hs.left (hp.mem_iff.1 hx)
  obtain ⟨g1, n, g2, g3⟩ := h4 z hz
  exact ⟨hb.ne_nil.2 g1, n, g2.trans e.symm, hb.reads.2 g3⟩

/-- Two texts with the same version and the same sections in any order, up to blank lines after each section and comments
before the first one: one of them is accepted as `f` exactly when the other one is. -/
theorem C43_order {s ws num r rest s' ws' num' r' rest' : Str} {v : Nat} {pre pre' : List Str} {xs ys zs : List Sect}
    (hv : Versioned s ws num r) (hk : KnownVersion num v) (hl : Layout r pre xs rest) (hp : ∀ l ∈ pre, Ignorable l)
    (hv' : Versioned s' ws' num' r') (hk' : KnownVersion num' v) (hl' : Layout r' pre' zs rest') (hp' : ∀ l ∈ pre', Ignorable l)
    (hxy : xs.Perm ys) (hyz : SameSects ys zs) (f : OsuFile D) :
    OsuFile.parse s = .ok f ↔ OsuFile.parse s' = .ok f := by
  have key : ∀ {s ws num r rest : Str} {pre : List Str} {xs : List Sect}, Versioned s ws num r → KnownVersion num v →
      Layout r pre xs rest → (∀ l ∈ pre, Ignorable l) → (OsuFile.parse s = .ok f ↔ FileReads v xs f) := by
    intro s ws num r rest pre xs hv hk hl hp
    rw [parse_versioned hv hk, parseRest_eq hl hp, fileLoop_ok]
    constructor
    · rintro ⟨h1, h2, h3, -, h5, h6⟩
      exact ⟨h1, h2, h3, h5, fun n hn => sectAbsent_new.2 (h6 n hn)⟩
    · rintro ⟨h1, h2, h3, h5, h6⟩
      exact ⟨h1, h2, h3, by simp, h5, fun n hn => sectAbsent_new.1 (h6 n hn)⟩
  rw [key hv hk hl hp, key hv' hk' hl' hp']
  exact ⟨fileReads_perm hxy hyz, fileReads_perm' hxy hyz⟩

/-- In particular for texts in the form in which files are written. -/
theorem C43_order_written {num : Str} {v : Nat} (hk : KnownVersion num v) {bs bs' : List (Str × Str)} (hp : bs.Perm bs')
    (hn : ∀ b ∈ bs, ']' ∉ b.1 ∧ '\n' ∉ b.1) (hw : ∀ b ∈ bs, WellText b.2) (f : OsuFile D) :
    OsuFile.parse (fileText num bs) = .ok f ↔ OsuFile.parse (fileText num bs') = .ok f := by
  rw [blocks_read hw hn hk, blocks_read (fun b hb => hw b (hp.mem_iff.2 hb)) (fun b hb => hn b (hp.mem_iff.2 hb)) hk,
    (hp.map Prod.fst).nodup_iff]
  simp only [hp.mem_iff, (hp.map Prod.fst).mem_iff]

/-- A file is written as its header, then its sections in a fixed order, each at most once: exactly those that are present
and have a text in this version. The storyboard is not among them. -/
theorem C43_written (f : OsuFile D) (s : Str) (h : f.shw = some s) :
    ∃ bs, s = fileText (natToStr f.version) bs ∧
      (bs.map Prod.fst).Sublist [c!"General", c!"Editor", c!"Metadata", c!"Difficulty", c!"Events", c!"TimingPoints", c!"Colours",
        c!"HitObjects"] ∧
      ∀ (n : SName) (t : Str), (n.text, t) ∈ bs ↔ SectPrints f (some t) n := by
  obtain ⟨p, hp, rfl⟩ := shw_iff.1 h
  refine ⟨listed p, rfl, listed_names p, fun n t => ?_⟩
  rw [listed_mem]
  constructor
  · rintro ⟨m, h1, h2⟩
    have := SName.text_inj h2
    subst this
    simp only at h1
    rw [← h1]; exact hp m
  · intro h
    refine ⟨n, ?_, rfl⟩
    have := hp n
    show p n = some t
    cases n <;> simp only [SectPrints] at h this
    case general => rw [this, h]
    case editor => rw [this, h]
    case metadata => rw [this, h]
    case difficulty => rw [this, h]
    case colours => rw [this, h]
    all_goals
      rcases h with ⟨-, h⟩ | ⟨x, s, h1, h2, h3⟩
      · cases h
      · rcases this with ⟨g, -⟩ | ⟨y, u, g1, g2, g3⟩
        · rw [h1] at g; cases g
        · rw [h1] at g1; cases g1
          rw [h2] at g2; cases g2
          rw [g3, h3]

/-! ## C41: round trip of a whole file -/

/-- For each section what is written, what is read back. -/
theorem sections_back {f g : OsuFile D} (hv : 3 ≤ f.version ∧ f.version ≤ 14) (h1 : g.version = f.version) (h2 : g.osb = none)
    (h : ∀ n, ∃ t, SectPrints f t n ∧ SectPrints g t n ∧ (∀ x, t = some x → WellText x ∧ SectReads f.version g x n) ∧
      (t = none → SectAbsent g n)) :
    ∃ s, f.shw = some s ∧ OsuFile.parse s = .ok g ∧ g.shw = some s := by
  obtain ⟨s, hs, hp⟩ := read_back (p := fun n => (h n).choose) hv (fun n => (h n).choose_spec.1)
    (fun n t ht => (h n).choose_spec.2.2.1 t ht) (fun n hn => (h n).choose_spec.2.2.2 hn) h1 h2
  refine ⟨s, hs, hp, ?_⟩
  have e1 := shw_iff.2 ⟨fun n => (h n).choose, fun n => (h n).choose_spec.1, rfl⟩
  have e2 := shw_iff.2 ⟨fun n => (h n).choose, fun n => (h n).choose_spec.2.1, rfl⟩
  rw [e1] at hs
  cases hs
  rw [e2, h1]

theorem restrict_self {K : Type} {V : K → Type} {p : (k : K) → V k → Bool} {sec : (k : K) → Option (V k)}
    (h : ∀ k x, sec k = some x → p k x = true) : (fun k => (sec k).filter (p k)) = sec := by
  funext k
  cases hx : sec k with
  | none => rfl
  | some x => simp [Option.filter, h k x hx]

/-- A file value with a known version whose sections are not empty and can be expressed in that version is written to a
text that is read as the same value. -/
theorem C41_round_trip {f : OsuFile D} (h : FileWritable f) : ∃ s, f.shw = some s ∧ OsuFile.parse s = .ok f := by
  have key : ∀ n, ∃ t, SectPrints f t n ∧ SectPrints f t n ∧ (∀ x, t = some x → WellText x ∧ SectReads f.version f x n) ∧
      (t = none → SectAbsent f n) := by
    intro n
    cases n
    case general =>
      refine ⟨_, rfl, rfl, ?_, fun e => by simpa [SectAbsent] using e⟩
      intro x hx
      obtain ⟨sec, hs, rfl⟩ := Option.map_eq_some_iff.1 hx
      obtain ⟨h1, h2⟩ := h.general sec hs
      exact ⟨Schema.wellText (General_lawful D) general_bracket (fun k x t hx ht => (GKey.field _ k x t (h2 k x hx).1 ht).1) h1,
        sec, C04_general_exact _ _ (fun k x hx => (h2 k x hx).1) (fun k x hx => (h2 k x hx).2), hs⟩
    case editor =>
      refine ⟨_, rfl, rfl, ?_, fun e => by simpa [SectAbsent] using e⟩
      intro x hx
      obtain ⟨sec, hs, rfl⟩ := Option.map_eq_some_iff.1 hx
      obtain ⟨h1, h2⟩ := h.editor sec hs
      refine ⟨Schema.wellText (Editor_lawful D) editor_bracket (fun k x t hx ht => (EKey.field _ k x t (h2 k x hx).1 ht).1) h1,
        sec, ?_, hs⟩
      rw [C04_editor _ _ fun k x hx => (h2 k x hx).1]
      exact congrArg _ (restrict_self fun k x hx => (h2 k x hx).2)
    case metadata =>
      refine ⟨_, rfl, rfl, ?_, fun e => by simpa [SectAbsent] using e⟩
      intro x hx
      obtain ⟨sec, hs, rfl⟩ := Option.map_eq_some_iff.1 hx
      obtain ⟨h1, h2⟩ := h.metadata sec hs
      exact ⟨Schema.wellText Metadata_lawful metadata_bracket (fun k x t hx ht => (MKey.field _ k x t (h2 k x hx) ht).1) h1,
        sec, C04_metadata _ _ h2, hs⟩
    case difficulty =>
      refine ⟨_, rfl, rfl, ?_, fun e => by simpa [SectAbsent] using e⟩
      intro x hx
      obtain ⟨sec, hs, rfl⟩ := Option.map_eq_some_iff.1 hx
      obtain ⟨h1, h2⟩ := h.difficulty sec hs
      exact ⟨Schema.wellText (Difficulty_lawful D) difficulty_bracket (fun k x t hx ht => by cases ht; exact DecOK.good (h2 k x hx)) h1,
        sec, C04_difficulty _ _ h2, hs⟩
    case events =>
      cases he : f.events with
      | none => exact ⟨none, .inl ⟨he, rfl⟩, .inl ⟨he, rfl⟩, nofun, fun _ => he⟩
      | some x =>
        obtain ⟨h1, h2⟩ := h.events x he
        obtain ⟨t, g1, g2, ls, g3, g4, g5⟩ := events_round_trip fun e hm => (h2 e hm).1
        obtain ⟨t', k1, k2⟩ := C35_round_trip_plain (fun e hm => (h2 e hm).1) fun e hm => (h2 e hm).2
        rw [g1] at k1
        cases k1
        refine ⟨some t, .inr ⟨x, t, he, g1, rfl⟩, .inr ⟨x, t, he, g1, rfl⟩, ?_, nofun⟩
        intro y hy
        cases hy
        exact ⟨events_wellText g2 g3 g4 fun e => h1 (g5.1 e), x, k2, he⟩
    case timingPoints =>
      cases he : f.timingPoints with
      | none => exact ⟨none, .inl ⟨he, rfl⟩, .inl ⟨he, rfl⟩, nofun, fun _ => he⟩
      | some x =>
        obtain ⟨h1, h2, h3⟩ := h.timingPoints x he
        obtain ⟨t, g1, g2⟩ := C16_round_trip h2
        refine ⟨some t, .inr ⟨x, t, he, g1, rfl⟩, .inr ⟨x, t, he, g1, rfl⟩, ?_, nofun⟩
        intro y hy
        cases hy
        exact ⟨lines_wellText (lead := TimingPoint.time) (fun a ha s hs => tp_line (h2 a ha).toTPWritable hs) h3 h1 g1, x, g2, he⟩
    case colours =>
      cases he : f.colours with
      | none => exact ⟨none, by simp [SectPrints, he], by simp [SectPrints, he], nofun, fun _ => he⟩
      | some x =>
        obtain ⟨h1, h2, h3⟩ := h.colours x he
        obtain ⟨t, g1, g2⟩ := C12_colours_round_trip (v := f.version) (by omega) h3
        refine ⟨some t, by simp [SectPrints, he, g1], by simp [SectPrints, he, g1], ?_, nofun⟩
        intro y hy
        cases hy
        exact ⟨colours_wellText g1 h1, some x, g2, he⟩
    case hitobjects =>
      cases he : f.hitobjects with
      | none => exact ⟨none, .inl ⟨he, rfl⟩, .inl ⟨he, rfl⟩, nofun, fun _ => he⟩
      | some x =>
        obtain ⟨h1, h2, h3⟩ := h.hitobjects x he
        obtain ⟨t, g1, g2⟩ := C21_round_trip h2
        refine ⟨some t, .inr ⟨x, t, he, g1, rfl⟩, .inr ⟨x, t, he, g1, rfl⟩, ?_, nofun⟩
        intro y hy
        cases hy
        exact ⟨lines_wellText (lead := fun o : HitObject D => o.position.x) (fun a ha s hs => ho_line (h2 a ha).toHOWritable hs) h3 h1 g1,
          x, g2, he⟩
  obtain ⟨s, hs, hp, -⟩ := sections_back h.version rfl h.osb key
  exact ⟨s, hs, hp⟩

/-! ## C42: saving a file again -/

/-- A file that is accepted is written to a text that is accepted, and written to the same text again. -/
theorem C42_file_value {s : Str} {f : OsuFile D} (h : OsuFile.parse s = .ok f) (hs : NoBareCR s) (ht : TrailPlain s)
    (hex : Offset24Exact D f.version) (hr : Resavable f) :
    ∃ t, f.shw = some t ∧ OsuFile.parse t = .ok (resaved f) ∧ (resaved f).shw = some t := by
  obtain ⟨ws, num, r, pre, xs, rest, hv, hk, hl, hp, hf⟩ := (C53_exact s f).1 h
  obtain ⟨-, h2, h3, h4, h5⟩ := hf
  obtain ⟨u, hu, hbs, htr⟩ := file_bodies hs ht hv hl
  have hbody : ∀ n : SName, SectAbsent f n ∨ ∃ body, body ≠ [] ∧ BodyIn u body ∧ SectReads f.version f body n := by
    intro n
    by_cases hn : n.text ∈ xs.map Sect.name
    · right
      obtain ⟨x, hx, e⟩ := List.mem_map.1 hn
      obtain ⟨g1, m, g2, g3⟩ := h4 x hx
      have := SName.text_inj (g2.trans e)
      subst this
      exact ⟨x.body, g1, hbs x hx g1, g3⟩
    · exact .inl (h5 n hn)
  have hcr : ∀ body, BodyIn u body → '\r' ∉ body := by
    rintro body ⟨⟨a, c, e, -⟩, -⟩ hx
    exact hu (by rw [e]; simp [hx])
  have hcrl : ∀ body, BodyIn u body → ∀ x ∈ lines body, '\r' ∉ x := by
    intro body hb x hx hc
    obtain ⟨a, b, e, -⟩ := lines_mem_split (hcr body hb) hx
    exact hcr body hb (by rw [e]; simp [hc])
  have hlast : ∀ body, BodyIn u body → ∀ x ∈ lines body, ∀ c ∈ x, lastChar c = true := by
    intro body hb x hx c hc
    have h1 := lines_noLF body x hx c hc
    have h2 : c ≠ '\r' := by rintro rfl; exact hcrl body hb x hx hc
    simp at h1
    simp [lastChar, h1, h2]
  refine sections_back (g := resaved f) ⟨hk.2.1, hk.2.2⟩ rfl h2 fun n => ?_
  cases n
  case general =>
    refine ⟨_, rfl, ?_, ?_, fun e => by simpa [SectAbsent, resaved] using e⟩
    · simp only [SectPrints, resaved, Option.map_map]
      congr 1; funext x; exact (Schema.toStr_written _ x).symm
    · intro x hx
      obtain ⟨sec, hsec, rfl⟩ := Option.map_eq_some_iff.1 hx
      rcases hbody .general with ha | ⟨body, -, -, sec', e1, e2⟩
      · rw [show f.general = none from ha] at hsec; cases hsec
      · rw [hsec] at e2; cases e2
        refine ⟨Schema.wellText (General_lawful D) general_bracket (fun k y t hy hyt => ?_) (hr.nonEmpty .general _ hx.symm),
          _, Schema.stable (General_lawful D) General_stable e1, by simp [resaved, hsec]⟩
        obtain ⟨u, hu, hpu⟩ := Schema.fromStr_post (General_lawful D) e1 k y hy
        exact (General_stable k _ u y t hu hpu hyt).1
  case editor =>
    refine ⟨_, rfl, ?_, ?_, fun e => by simpa [SectAbsent, resaved] using e⟩
    · simp only [SectPrints, resaved, Option.map_map]
      congr 1; funext x; exact (Schema.toStr_written _ x).symm
    · intro x hx
      obtain ⟨sec, hsec, rfl⟩ := Option.map_eq_some_iff.1 hx
      rcases hbody .editor with ha | ⟨body, -, -, sec', e1, e2⟩
      · rw [show f.editor = none from ha] at hsec; cases hsec
      · rw [hsec] at e2; cases e2
        refine ⟨Schema.wellText (Editor_lawful D) editor_bracket (fun k y t hy hyt => ?_) (hr.nonEmpty .editor _ hx.symm),
          _, Schema.stable (Editor_lawful D) Editor_stable e1, by simp [resaved, hsec]⟩
        obtain ⟨u, hu, hpu⟩ := Schema.fromStr_post (Editor_lawful D) e1 k y hy
        exact (Editor_stable k _ u y t hu hpu hyt).1
  case metadata =>
    refine ⟨_, rfl, rfl, ?_, fun e => by simpa [SectAbsent, resaved] using e⟩
    intro x hx
    obtain ⟨sec, hsec, rfl⟩ := Option.map_eq_some_iff.1 hx
    rcases hbody .metadata with ha | ⟨body, -, -, sec', e1, e2⟩
    · rw [show f.metadata = none from ha] at hsec; cases hsec
    · rw [hsec] at e2; cases e2
      refine ⟨Schema.wellText Metadata_lawful metadata_bracket (fun k y t hy hyt => ?_) (hr.nonEmpty .metadata _ hx.symm),
        _, C42_metadata e1, by simp [resaved, hsec]⟩
      obtain ⟨u, hu, hpu⟩ := Schema.fromStr_post Metadata_lawful e1 k y hy
      exact (Metadata_stable k _ u y t hu hpu hyt).1
  case difficulty =>
    refine ⟨_, rfl, rfl, ?_, fun e => by simpa [SectAbsent, resaved] using e⟩
    intro x hx
    obtain ⟨sec, hsec, rfl⟩ := Option.map_eq_some_iff.1 hx
    rcases hbody .difficulty with ha | ⟨body, -, -, sec', e1, e2⟩
    · rw [show f.difficulty = none from ha] at hsec; cases hsec
    · rw [hsec] at e2; cases e2
      refine ⟨Schema.wellText (Difficulty_lawful D) difficulty_bracket (fun k y t hy hyt => ?_) (hr.nonEmpty .difficulty _ hx.symm),
        _, C42_difficulty e1, by simp [resaved, hsec]⟩
      obtain ⟨u, hu, hpu⟩ := Schema.fromStr_post (Difficulty_lawful D) e1 k y hy
      exact (Difficulty_stable k _ u y t hu hpu hyt).1
  case events =>
    cases he : f.events with
    | none => exact ⟨none, .inl ⟨he, rfl⟩, .inl ⟨by simp [resaved, he], rfl⟩, nofun, fun _ => by simp [SectAbsent, resaved, he]⟩
    | some l =>
      rcases hbody .events with ha | ⟨body, -, hb, l', e1, e2⟩
      · rw [show f.events = none from ha] at he; cases he
      · rw [he] at e2; cases e2
        obtain ⟨t, g1, g2, g3, ls, g4, g5, -⟩ := events_stable (hcrl body hb) e1
        have hpr : SectPrints f (some t) .events := .inr ⟨l, t, he, g1, rfl⟩
        refine ⟨some t, hpr, .inr ⟨_, t, by simp [resaved, he], g3, rfl⟩, ?_, nofun⟩
        intro y hy
        cases hy
        refine ⟨events_wellText g2 g4 g5 ?_, _, g2, by simp [resaved, he]⟩
        rintro rfl
        exact hr.nonEmpty .events t hpr (by rw [g4]; rfl)
  case timingPoints =>
    cases he : f.timingPoints with
    | none => exact ⟨none, .inl ⟨he, rfl⟩, .inl ⟨by simp [resaved, he], rfl⟩, nofun, fun _ => by simp [SectAbsent, resaved, he]⟩
    | some l =>
      rcases hbody .timingPoints with ha | ⟨body, hne, hb, l', e1, e2⟩
      · rw [show f.timingPoints = none from ha] at he; cases he
      · rw [he] at e2; cases e2
        obtain ⟨t, g1, g2, g3⟩ := C42_timing_points_stable e1 (hcrl body hb) hex fun h4 => hr.index h4 l he
        refine ⟨some t, .inr ⟨l, t, he, g1, rfl⟩, .inr ⟨_, t, by simp [resaved, he], g3, rfl⟩, ?_, nofun⟩
        intro y hy
        cases hy
        obtain ⟨k1, k2⟩ := items_start (lead := TimingPoint.time) (fun _ _ => tp_lead) hu htr hb hne e1
        refine ⟨lines_wellText (lead := TimingPoint.time) (fun a ha s hsa => ?_) k2 k1 g1, _, g2, by simp [resaved, he]⟩
        obtain ⟨x, hx, -, hpx⟩ := parseLines_mem e1 a ha
        exact tp_line (tpWritable_of_parse hpx (hlast body hb x hx) hex fun h4 => hr.index h4 l he a ha) hsa
  case colours =>
    rcases hbody .colours with ha | ⟨body, -, hb, o, e1, e2⟩
    · have ha : f.colours = none := ha
      exact ⟨none, by simp [SectPrints, ha], by simp [SectPrints, resaved, ha], nofun, fun _ => by simp [SectAbsent, resaved, ha]⟩
    · cases o with
      | none => exact ⟨none, by simp [SectPrints, e2], by simp [SectPrints, resaved, e2], nofun, fun _ => by simp [SectAbsent, resaved, e2]⟩
      | some l =>
        obtain ⟨t, g1, g2⟩ := C42_colours_stable e1
        have hpr : SectPrints f (some t) .colours := by simp [SectPrints, e2, g1]
        refine ⟨some t, hpr, by simp [SectPrints, resaved, e2, g1], ?_, nofun⟩
        intro y hy
        cases hy
        refine ⟨colours_wellText g1 ?_, _, g2, by simp [resaved, e2]⟩
        rintro rfl
        refine hr.nonEmpty .colours t hpr ?_
        unfold Colours.shw at g1
        split at g1
        · cases g1
        · cases g1; rfl
  case hitobjects =>
    cases he : f.hitobjects with
    | none => exact ⟨none, .inl ⟨he, rfl⟩, .inl ⟨by simp [resaved, he], rfl⟩, nofun, fun _ => by simp [SectAbsent, resaved, he]⟩
    | some l =>
      rcases hbody .hitobjects with ha | ⟨body, hne, hb, l', e1, e2⟩
      · rw [show f.hitobjects = none from ha] at he; cases he
      · rw [he] at e2; cases e2
        have hfn : 12 ≤ f.version ∨ f.version ≤ 2 → ∀ o ∈ l, ∀ h, o.hitsample = some h → h.filename = [] ∨ blanks h.filename = false :=
          fun h => hr.filename (h.resolve_right (by have := hk.2.1; omega)) l he
        obtain ⟨t, g1, g2, g3⟩ := C42_hit_objects_stable e1 (hcrl body hb) hex hfn fun h3 => hr.slider h3 l he
        refine ⟨some t, .inr ⟨l, t, he, g1, rfl⟩, .inr ⟨_, t, by simp [resaved, he], g3, rfl⟩, ?_, nofun⟩
        intro y hy
        cases hy
        obtain ⟨k1, k2⟩ := items_start (lead := fun o : HitObject D => o.position.x) (fun _ _ => ho_lead) hu htr hb hne e1
        refine ⟨lines_wellText (lead := fun o : HitObject D => o.position.x) (fun a ha s hsa => ?_) k2 k1 g1, _, g2, by simp [resaved, he]⟩
        obtain ⟨x, hx, -, hpx⟩ := parseLines_mem e1 a ha
        exact ho_line (hoWritable_of_parse hpx (hlast body hb x hx) hex (fun hv => hfn hv a ha) fun h3 => hr.slider h3 l he a ha) hsa

/-- The text does not change any more. -/
theorem C42_file {s : Str} {f : OsuFile D} (h : OsuFile.parse s = .ok f) (hs : NoBareCR s) (ht : TrailPlain s)
    (hex : Offset24Exact D f.version) (hr : Resavable f) :
    ∃ t, ∃ g : OsuFile D, f.shw = some t ∧ OsuFile.parse t = .ok g ∧ g.shw = some t :=
  let ⟨t, h1, h2, h3⟩ := C42_file_value h hs ht hex hr
  ⟨t, _, h1, h2, h3⟩

end

section
attribute [local instance] asciiUni

/-- A file with metadata, events, timing points, colours and hit objects. -/
def exampleFile : OsuFile Dec96 where
  version := 14
  general := none
  editor := none
  osb := none
  metadata := some exampleMetadata
  difficulty := none
  events := some [.comment c!"x", .break_ ⟨100, 200, true⟩]
  timingPoints := some [tpExample, tpExample]
  colours := some [.combo 1 ⟨255, 0, 17⟩, .sliderBorder ⟨0, 0, 0⟩]
  hitobjects := some [hoSlider]

theorem exampleFile_ok : FileWritable exampleFile where
  version := by decide
  osb := rfl
  general := fun x h => by cases h
  editor := fun x h => by cases h
  metadata := fun x h => by
    cases h
    exact ⟨by decide, exampleMetadata_ok⟩
  difficulty := fun x h => by cases h
  events := fun x h => by
    cases h
    refine ⟨by simp, fun e he => ?_⟩
    simp only [List.mem_cons, List.not_mem_nil, or_false] at he
    rcases he with rfl | rfl
    · refine ⟨⟨?_, ?_⟩, nofun⟩
      · exact (by decide : ∀ c ∈ c!"x", lastChar c = true)
      · intro y hy; cases hy
    · refine ⟨⟨?_, ?_⟩, nofun⟩
      · exact ⟨⟨100, by unfold OldTime; decide⟩, ⟨200, by unfold OldTime; decide⟩⟩
      · intro y hy; cases hy
  timingPoints := fun x h => by
    cases h
    refine ⟨by simp, fun t ht => ?_, trivial, fun y hy => ?_⟩
    · simp only [List.mem_cons, List.not_mem_nil, or_false, or_self] at ht
      subst ht; exact tpExample_ok
    · simp only [List.map_cons, List.map_nil, List.mem_cons, List.not_mem_nil, or_false] at hy
      subst hy; trivial
  colours := fun x h => by
    cases h
    refine ⟨by simp, by decide, fun c hc => ?_⟩
    simp only [List.mem_cons, List.not_mem_nil, or_false] at hc
    rcases hc with rfl | rfl
    · exact (by decide : (0 : Int) ≤ 1)
    · trivial
  hitobjects := fun x h => by
    cases h
    refine ⟨by simp, fun t ht => ?_, trivial, fun y hy => by cases hy⟩
    simp only [List.mem_cons, List.not_mem_nil, or_false] at ht
    subst ht; exact hoSlider_ok

set_option maxRecDepth 4000 in
example : exampleFile.shw = some c!"osu file format v14\n\n[Metadata]\nTitle:Re: start\nTags:a  b\nBeatmapID:-1\n\n[Events]\n//x\n2,100,200\n\n[TimingPoints]\n1500,-5.0,4,9,2,70,0,9\n1500,-5.0,4,9,2,70,0,9\n\n[Colours]\nCombo1 : 255,0,17\nSliderBorder : 0,0,0\n\n[HitObjects]\n100,200,1500,54,4,P|110:21.5|120:-5,2,140.5,2|0,1:2|3:7,2:3:4:80:a,b.wav" := by decide

example : ∃ s, exampleFile.shw = some s ∧ OsuFile.parse s = .ok exampleFile := C41_round_trip exampleFile_ok

/-- The value of the example file. -/
def exRead : OsuFile Dec96 := match OsuFile.parse exFile with
  | .ok f => f
  | _ => OsuFile.new 14

theorem exRead_parse : OsuFile.parse exFile = .ok exRead := by
  obtain ⟨f, hf⟩ := Res.of_isOk (r := (OsuFile.parse exFile : Res _ (OsuFile Dec96))) (by decide)
  rw [hf]; unfold exRead; rw [hf]

example : exRead.shw = some c!"osu file format v14\n\n[General]\nMode: 1\n\n[Colours]\nCombo1 : 1,2,3" := by decide

theorem exFile_trail : TrailPlain exFile := by
  intro l hl a b e hb c hc
  exact (by decide : ∀ l ∈ lines exFile, ∀ c ∈ l, isWs c = true → isMultispace c = true) l hl c (by rw [e]; simp [hc]) (hb c hc)

theorem exRead_none {α : Type} {x : Option α} (h : x.isSome = false) (y : α) : x ≠ some y := by rintro rfl; cases h

theorem exRead_resavable : Resavable exRead where
  nonEmpty := by
    intro n t h
    cases n
    case general =>
      have h : some t = _ := h
      rw [show exRead.general.map ((General Dec96).toStr exRead.version) = some c!"Mode: 1" by decide] at h
      cases h; simp
    case colours =>
      have h : some t = _ := h
      rw [show exRead.colours.bind (Colours.shw exRead.version) = some c!"Combo1 : 1,2,3" by decide] at h
      cases h; simp
    case editor =>
      have h : some t = _ := h
      rw [show exRead.editor.map ((Editor Dec96).toStr exRead.version) = none by decide] at h
      cases h
    case metadata =>
      have h : some t = _ := h
      rw [show exRead.metadata.map (Metadata.toStr exRead.version) = none by decide] at h
      cases h
    case difficulty =>
      have h : some t = _ := h
      rw [show exRead.difficulty.map ((Difficulty Dec96).toStr exRead.version) = none by decide] at h
      cases h
    case events =>
      rcases h with ⟨-, h⟩ | ⟨x, _, h, -⟩
      · cases h
      · exact absurd h (exRead_none (x := exRead.events) (by decide) x)
    case timingPoints =>
      rcases h with ⟨-, h⟩ | ⟨x, _, h, -⟩
      · cases h
      · exact absurd h (exRead_none (x := exRead.timingPoints) (by decide) x)
    case hitobjects =>
      rcases h with ⟨-, h⟩ | ⟨x, _, h, -⟩
      · cases h
      · exact absurd h (exRead_none (x := exRead.hitobjects) (by decide) x)
  index := fun _ l h => absurd h (exRead_none (by decide) l)
  filename := fun _ l h => absurd h (exRead_none (by decide) l)
  slider := fun _ l h => absurd h (exRead_none (by decide) l)

example : ∃ t, ∃ g : OsuFile Dec96, exRead.shw = some t ∧ OsuFile.parse t = .ok g ∧ g.shw = some t :=
  C42_file exRead_parse (by unfold NoBareCR; decide) exFile_trail (fun _ h => absurd h (by decide)) exRead_resavable

/-- A section of which nothing is written: the text that is saved makes reading panic. -/
theorem C42_file_false_empty : ∃ f : OsuFile Dec96, OsuFile.parse c!"osu file format v3\n[General]\nSampleSet: Soft" = .ok f ∧
    f.shw = some c!"osu file format v3\n\n[General]\n" ∧
    (OsuFile.parse c!"osu file format v3\n\n[General]\n" : Res _ (OsuFile Dec96)) = .panic := by
  obtain ⟨f, hf⟩ := Res.of_isOk (r := (OsuFile.parse c!"osu file format v3\n[General]\nSampleSet: Soft" : Res _ (OsuFile Dec96))) (by decide)
  refine ⟨f, hf, ?_, Res.of_isPanic (by decide)⟩
  have : (OsuFile.parse c!"osu file format v3\n[General]\nSampleSet: Soft" >>= fun f : OsuFile Dec96 => Res.ok f.shw : Res _ (Option Str)) =
    .ok (some c!"osu file format v3\n\n[General]\n") := by decide
  rw [hf] at this
  exact Res.ok.inj this

/-- A line with only a no-break space: the indentation of the line after it is lost when the file is saved the second time. -/
theorem C42_file_false_blank : ∃ f g : OsuFile Dec96, ∃ s t,
    OsuFile.parse c!"osu file format v14\n[TimingPoints]\n\u00a0\n x,1,4,1,1,1,1,0" = .ok f ∧
    f.shw = some s ∧ OsuFile.parse s = .ok g ∧ g.shw = some t ∧ s ≠ t := by
  obtain ⟨f, hf⟩ := Res.of_isOk (r := (OsuFile.parse c!"osu file format v14\n[TimingPoints]\n\u00a0\n x,1,4,1,1,1,1,0" : Res _ (OsuFile Dec96))) (by decide)
  obtain ⟨g, hg⟩ := Res.of_isOk (r := (OsuFile.parse c!"osu file format v14\n\n[TimingPoints]\n x,1,4,1,1,1,1,0" : Res _ (OsuFile Dec96))) (by decide)
  have h1 : (OsuFile.parse c!"osu file format v14\n[TimingPoints]\n\u00a0\n x,1,4,1,1,1,1,0" >>= fun f : OsuFile Dec96 => Res.ok f.shw : Res _ (Option Str)) =
    .ok (some c!"osu file format v14\n\n[TimingPoints]\n x,1,4,1,1,1,1,0") := by decide
  have h2 : (OsuFile.parse c!"osu file format v14\n\n[TimingPoints]\n x,1,4,1,1,1,1,0" >>= fun f : OsuFile Dec96 => Res.ok f.shw : Res _ (Option Str)) =
    .ok (some c!"osu file format v14\n\n[TimingPoints]\nx,1,4,1,1,1,1,0") := by decide
  rw [hf] at h1
  rw [hg] at h2
  exact ⟨f, g, _, _, hf, Res.ok.inj h1, hg, Res.ok.inj h2, by decide⟩

/-- Two sections in either order, with blank lines and a comment. -/
example (f : OsuFile Dec96) : OsuFile.parse exFile = .ok f ↔
    OsuFile.parse c!"osu file format v14\n[Colours]\nCombo1 : 1,2,3\n[General]\nMode: 1\n\n\t\n" = .ok f := by
  refine C43_order exFile_versioned known_14 exFile_layout ignorable_ex (ws' := []) (num' := c!"14")
    (r' := c!"\n[Colours]\nCombo1 : 1,2,3\n[General]\nMode: 1\n\n\t\n") (pre' := [c!""])
    (ys := [⟨c!"\n", c!"Colours", c!"\n", c!"Combo1 : 1,2,3"⟩, ⟨c!"", c!"General", c!"\n", c!"Mode: 1"⟩])
    (zs := [⟨c!"", c!"Colours", c!"\n", c!"Combo1 : 1,2,3"⟩, ⟨c!"\n", c!"General", c!"\n", c!"Mode: 1\n\n\t"⟩]) (rest' := [])
    ⟨⟨[], .inl rfl, rfl⟩, by decide, by decide, by decide, .inr ⟨_, .inr rfl⟩⟩ known_14
    (layout_iff.2 ⟨by decide, sections_iff.1 (by decide)⟩) ?_ (by decide) ?_ f
  · intro l hl
    simp only [List.mem_singleton] at hl
    subst hl
    exact .inl rfl
  · exact .cons rfl (.refl _) (.cons rfl (.more (b := c!"Mode: 1") (w := c!"\n\n\t") ⟨_, rfl, by decide⟩ (by decide) (by decide)) .nil)

/-- The round trip fails for a file with an empty section: reading what was written panics if the section is the last one. -/
theorem C41_false_empty_section : ∃ s, (⟨14, none, none, none, none, none, none, some [], none, none⟩ : OsuFile Dec96).shw = some s ∧
    (OsuFile.parse s : Res _ (OsuFile Dec96)) = .panic := ⟨c!"osu file format v14\n\n[TimingPoints]\n", by decide, Res.of_isPanic (by decide)⟩

end

section
attribute [local instance] asciiUni

example : ∃ t, exRead.shw = some t ∧ OsuFile.parse t = .ok (resaved exRead) ∧ (resaved exRead).shw = some t :=
  C42_file_value exRead_parse (by unfold NoBareCR; decide) exFile_trail (fun _ h => absurd h (by decide)) exRead_resavable

example (s : Str) (h : exampleFile.shw = some s) : ∃ bs, s = fileText c!"14" bs ∧ ∀ (n : SName) (t : Str), (n.text, t) ∈ bs ↔ SectPrints exampleFile (some t) n :=
  (C43_written exampleFile s h).imp fun _ h => ⟨h.1, h.2.2⟩

/-- Two written sections in either order. -/
example (f : OsuFile Dec96) : OsuFile.parse (fileText c!"14" [(c!"General", c!"Mode: 1"), (c!"Colours", c!"Combo1 : 1,2,3")]) = .ok f ↔
    OsuFile.parse (fileText c!"14" [(c!"Colours", c!"Combo1 : 1,2,3"), (c!"General", c!"Mode: 1")]) = .ok f :=
  C43_order_written known_14 (.swap _ _ _) (by decide) (by
    intro b hb
    have : b = (c!"General", c!"Mode: 1") ∨ b = (c!"Colours", c!"Combo1 : 1,2,3") := by simpa using hb
    rcases this with rfl | rfl
    · exact ⟨[c!"Mode: 1"], rfl, by decide, fun l hl => by cases List.mem_singleton.1 hl; exact ⟨by decide, by decide, by decide⟩,
        fun l hl => by cases hl; exact .cons (by decide), fun l hl => absurd hl List.not_mem_nil⟩
    · exact ⟨[c!"Combo1 : 1,2,3"], rfl, by decide, fun l hl => by cases List.mem_singleton.1 hl; exact ⟨by decide, by decide, by decide⟩,
        fun l hl => by cases hl; exact .cons (by decide), fun l hl => absurd hl List.not_mem_nil⟩) f

end

end Osu
