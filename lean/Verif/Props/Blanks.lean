/-
C73: where blanks count.
-/
import Verif.Proof.Blanks
import Verif.Props.Sections
import Verif.Props.HitObjects
import Verif.Props.TimingPoints
import Verif.Proof.Dec96

namespace Osu
open Parser

/-! ## Key/value sections -/

/-- Blanks and tabs after a colon change nothing: not the value, not the error or its line. The colon is the first of its
line, which begins the text or follows a line feed. -/
theorem C73_after_colon (S : Schema) (v : Nat) {pre key ws : Str} (hp : pre = [] ∨ pre.getLast? = some '\n')
    (hk : ':' ∉ key ∧ '\n' ∉ key) (hw : ∀ c ∈ ws, c = ' ' ∨ c = '\t') (t : Str) :
    S.fromStr v (pre ++ key ++ ':' :: (ws ++ t)) = S.fromStr v (pre ++ key ++ ':' :: t) := by
  have hw' : AllC isSpace ws := fun c hc => by rcases hw c hc with rfl | rfl <;> rfl
  have hk' : AllC (fun c => !(c == ':' || c == '\n')) key := fun c hc => by
    have e1 : c ≠ ':' := by rintro rfl; exact hk.1 hc
    have e2 : c ≠ '\n' := by rintro rfl; exact hk.2 hc
    simp [e1, e2]
  obtain ⟨r, r', fs, fs', h1, h2, h3, h4⟩ := getFields_afterColon hw' t _ pre key (Nat.le_refl _) hp hk'
  rw [List.append_assoc, List.append_assoc]
  unfold Schema.fromStr
  rw [h1, h2]
  have hsum : (fs.map fun f => (lines f.ws2).length).sum = (fs'.map fun f => (lines f.ws2).length).sum := by
    have e : ∀ gs : List FieldLine, gs.map (fun f => (lines f.ws2).length) = (gs.map FieldLine.bare).map fun x => (lines x.2.2).length := by
      intro gs; rw [List.map_map]; rfl
    rw [e, e, h3]
  dsimp only
  rcases h4 with rfl | ⟨h4, h5⟩
  · rw [hsum, S.run_bare v fs fs' _ _ _ h3]
  · rw [if_pos (trim_colon h4), if_pos (trim_colon h5), hsum]

/-- Blanks, tabs and line ends in front of a line that is not the first (indentation and blank lines) change nothing but the
line of an error. -/
theorem C73_gap (S : Schema) (v : Nat) {pre ws : Str} (hp : pre.getLast? = some '\n')
    (hw : ∀ c ∈ ws, c = ' ' ∨ c = '\t' ∨ c = '\r' ∨ c = '\n') (z : Str) :
    noLine (S.fromStr v (pre ++ (ws ++ z))) = noLine (S.fromStr v (pre ++ z)) := by
  have hw' : AllC isMultispace ws := fun c hc => by rcases hw c hc with rfl | rfl | rfl | rfl <;> rfl
  obtain ⟨r, r', fs, fs', h1, h2, h3, h4⟩ := getFields_gap hw' z _ pre (Nat.le_refl _) hp
  unfold Schema.fromStr
  rw [h1, h2]
  dsimp only
  have h5 : trim r ≠ [] ↔ trim r' ≠ [] := by rw [Ne, Ne, trim_eq_nil, trim_eq_nil]; exact not_congr h4
  by_cases h : trim r ≠ []
  · rw [if_pos h, if_pos (h5.1 h)]; rfl
  · rw [if_neg h, if_neg fun h' => h (h5.2 h')]
    exact S.run_kept v fs fs' _ _ _ _ h3

example (v : Nat) (t : Str) : Metadata.fromStr v (c!"Title: x\nArtist" ++ ':' :: (c!"  \t" ++ t)) = Metadata.fromStr v (c!"Title: x\nArtist" ++ ':' :: t) :=
  C73_after_colon Metadata v (pre := c!"Title: x\n") (key := c!"Artist") (.inr rfl) (by decide) (by decide) t
/-- The line of an error does change: the second of two lines is reported as the third if it is indented. -/
example : Metadata.fromStr 14 c!"Title:x\nTagz:y" = .err ⟨1, .invalidKey⟩ ∧
    Metadata.fromStr 14 c!"Title:x\n  Tagz:y" = .err ⟨2, .invalidKey⟩ := by constructor <;> rfl

/-- No white space. -/
def NoWs (s : Str) : Prop := ∀ c ∈ s, isWs c = false

instance (s : Str) : Decidable (NoWs s) := by unfold NoWs; infer_instance

theorem NoWs.num {s : Str} (h : AllC isNumChar s) : NoWs s := by
  intro c hc
  have := h c hc
  simp only [isNumChar, isDig, digitVal, Bool.or_eq_true, beq_iff_eq] at this
  rcases this with (h | rfl) | rfl
  · split at h
    · rename_i hn
      unfold isWs
      simp only [Bool.or_eq_false_iff, Bool.and_eq_false_iff, decide_eq_false_iff_not, beq_eq_false_iff_ne, ne_eq]
      omega
    · cases h
  · decide
  · decide

/-- Keys do not contain white space: an accepted text has none in front of a colon that ends a key. -/
theorem C73_keys {S : Schema} (hS : S.Lawful) (hn : ∀ k, NoWs (S.name k)) {v : Nat} {s : Str} {sec : S.Section}
    (h : S.fromStr v s = .ok sec) {es : List (KVLine × Str)} {r : Str} (hs : KVSplits s es r) : ∀ e ∈ es, NoWs e.1.key := by
  obtain ⟨es', r', h1, -, -, h2, -⟩ := (C06_any_text_accepted hS v s sec).1 h
  obtain ⟨rfl, rfl⟩ := kvSplits_unique hs h1
  intro e he
  obtain ⟨k, hk, -⟩ := h2 e he
  rw [← hk]
  exact hn k

theorem C73_names {D : Type} [DecLib D] : (∀ k, NoWs ((General D).name k)) ∧ (∀ k, NoWs ((Editor D).name k)) ∧
    (∀ k, NoWs (Metadata.name k)) ∧ (∀ k, NoWs ((Difficulty D).name k)) := by
  refine ⟨fun k => ?_, fun k => ?_, fun k => ?_, fun k => ?_⟩
  · show NoWs (GKey.name k)
    cases (k : GKey) <;> decide
  · show NoWs (EKey.name k)
    cases (k : EKey) <;> decide
  · show NoWs (MKey.name k)
    cases (k : MKey) <;> decide
  · show NoWs (DKey.name k)
    cases (k : DKey) <;> decide

example : NoWs ((General Dec96).name .audioFilename) := C73_names.1 _

/-- The first line may not be indented: an accepted text that begins with white space has nothing else. -/
theorem C73_first_line {S : Schema} (hS : S.Lawful) (hn : ∀ k, NoWs (S.name k)) {v : Nat} {c : Char} {t : Str} {sec : S.Section}
    (hc : isWs c = true) (h : S.fromStr v (c :: t) = .ok sec) : (∀ d ∈ t, isWs d = true) ∧ ∀ k, sec k = none := by
  obtain ⟨es, r, h1, hb, -, -, h3⟩ := (C06_any_text_accepted hS v _ sec).1 h
  have hk := C73_keys hS hn h h1
  have h0 := h1.1
  generalize hu : c :: t = u at h0
  cases h0 with
  | nil =>
    subst hu
    exact ⟨fun d hd => hb d (by simp [hd]), fun k => h3 k (by simp)⟩
  | @cons l gap s' es' _ hl _ _ _ _ _ _ _ _ =>
    exfalso
    have hk0 := hk (l, gap) (by simp)
    unfold KVLine.text at hu
    cases e : l.key with
    | nil =>
      rw [e] at hu
      simp only [List.nil_append, List.cons_append, List.cons.injEq] at hu
      rw [hu.1] at hc
      exact absurd hc (by decide)
    | cons d ds =>
      rw [e] at hu
      simp only [List.cons_append, List.cons.injEq] at hu
      have := hk0 d (by simp [e])
      rw [← hu.1, hc] at this
      cases this

example : Metadata.fromStr 14 c!" Title:x" = .err ⟨0, .invalidKey⟩ := by rfl

theorem usize_noWs {s : Str} {n : UInt64} (h : parseUsize s = .ok n) : NoWs s := .num (parseUsize_chars h).2
theorem i32_noWs {s : Str} {n : Int32} (h : parseI32 s = .ok n) : NoWs s := .num (parseI32_chars h).2
theorem u8_noWs {s : Str} {n : UInt8} (h : parseU8 s = .ok n) : NoWs s := .num (parseU8_chars h).2
theorem zeroOne_noWs {s : Str} {b : Bool} (h : parseZeroOneBool s = .ok b) : NoWs s := .num (parseZeroOneBool_chars h)

theorem intField_noWs {s : Str} {x : Option Int32} (h : intField s = .ok x) : NoWs s := by
  unfold intField at h
  cases e : parseI32 s with
  | ok n => exact i32_noWs e
  | err e' => rw [e] at h; cases h
  | panic => rw [e] at h; cases h

theorem boolField_noWs {s : Str} {x : Option Bool} (h : boolField s = .ok x) : NoWs s := by
  unfold boolField at h
  cases e : parseZeroOneBool s with
  | ok n => exact zeroOne_noWs e
  | err e' => rw [e] at h; cases h
  | panic => rw [e] at h; cases h

theorem NoWs.join {s : Str} (h : ∀ p ∈ splitOnC ',' s, NoWs p) : NoWs s := by
  intro c hc
  rw [← join_splitOnC ',' s] at hc
  generalize splitOnC ',' s = ps at h hc
  induction ps with
  | nil => cases hc
  | cons p ps ih =>
    cases ps with
    | nil => exact h p (by simp) c hc
    | cons q qs =>
      rw [Osu.join] at hc
      simp only [List.append_assoc, List.mem_append, List.mem_singleton] at hc
      rcases hc with hc | rfl | hc
      · exact h p (by simp) c hc
      · decide
      · exact ih (fun x hx => h x (by simp [hx])) hc

theorem bookmarks_noWs {s : Str} {l : List Int32} (h : parseBookmarks s = .ok l) : NoWs s := by
  rcases (C08_bookmarks_accepts s l).1 h with ⟨rfl, -⟩ | h
  · intro c hc; cases hc
  · refine NoWs.join fun p hp => ?_
    have : parseI32 p ∈ l.map (Res.ok : Int32 → Res IntErr Int32) := by rw [← h]; exact List.mem_map.2 ⟨p, hp, rfl⟩
    obtain ⟨n, -, hn⟩ := List.mem_map.1 this
    exact i32_noWs hn.symm

section
variable {D : Type} [DecLib D]

theorem general_value {k : GKey} {v : Nat} {s : Str} {x : k.Val D} (h : GKey.parse k v s = .ok (some x)) (hs : ¬ NoWs s) :
    k ∈ [GKey.audioFilename, .audioHash, .skinPreference, .stackLeniency, .editorDistanceSpacing] := by
  cases k with
  | audioFilename | audioHash | skinPreference | stackLeniency | editorDistanceSpacing => simp
  | audioLeadIn | previewTime | countdownOffset => exact absurd (intField_noWs h) hs
  | letterboxInBreaks | storyFireInFront | useSkinSprites | alwaysShowPlayfield | epilepsyWarning | specialStyle
  | widescreenStoryboard | samplesMatchPlaybackRate => exact absurd (boolField_noWs h) hs
  | editorBookmarks =>
    change (parseBookmarks s >>= fun l => .ok (some l)) = .ok (some x) at h
    cases e : parseBookmarks s with
    | ok n => exact absurd (bookmarks_noWs e) hs
    | err e' => rw [e] at h; cases h
    | panic => rw [e] at h; cases h
  | countdown =>
    change Countdown.parse v s = .ok (some x) at h
    unfold Countdown.parse at h
    split at h
    · cases h
    · cases e : parseUsize s with
      | ok n => exact absurd (usize_noWs e) hs
      | err e' => rw [e] at h; cases h
      | panic => rw [e] at h; cases h
  | mode =>
    change Mode.parse v s = .ok (some x) at h
    unfold Mode.parse at h
    cases e : parseUsize s with
    | ok n => exact absurd (usize_noWs e) hs
    | err e' => rw [e] at h; cases h
    | panic => rw [e] at h; cases h
  | sampleSet =>
    change GSampleSet.parse v s = .ok (some x) at h
    unfold GSampleSet.parse at h
    split at h
    · cases h
    · refine absurd ?_ hs
      repeat' split at h
      all_goals first | (subst s; decide) | cases h
  | overlayPosition =>
    change OverlayPosition.parse v s = .ok (some x) at h
    unfold OverlayPosition.parse at h
    split at h
    · cases h
    · refine absurd ?_ hs
      repeat' split at h
      all_goals first | (subst s; decide) | cases h

theorem editor_value {k : EKey} {v : Nat} {s : Str} {x : Option (k.Val D)} (h : EKey.parse k v s = .ok x) (hs : ¬ NoWs s) :
    k ∈ [EKey.distanceSpacing, .beatDivisor, .timelineZoom] := by
  cases k with
  | distanceSpacing | beatDivisor | timelineZoom => simp
  | gridSize | currentTime => exact absurd (intField_noWs h) hs
  | bookmarks =>
    change (parseBookmarks s >>= fun l => .ok (some l)) = .ok x at h
    cases e : parseBookmarks s with
    | ok n => exact absurd (bookmarks_noWs e) hs
    | err e' => rw [e] at h; cases h
    | panic => rw [e] at h; cases h

/-- General: a value with white space in it is refused, except in the fields that hold text, in decimals (which keep it
as text), and in fields the version does not have. -/
theorem C73_general {v : Nat} {s : Str} {sec : (General D).Section} (h : (General D).fromStr v s = .ok sec)
    {es : List (KVLine × Str)} {r : Str} (hs : KVSplits s es r) {e : KVLine × Str} (he : e ∈ es) (hw : ¬ NoWs e.1.value) :
    ∃ k : GKey, k.name = e.1.key ∧ (sec k = none ∨
      k ∈ [GKey.audioFilename, .audioHash, .skinPreference, .stackLeniency, .editorDistanceSpacing]) := by
  obtain ⟨es', r', h1, -, -, h2, -⟩ := (C06_any_text_accepted (General_lawful D) v s sec).1 h
  obtain ⟨rfl, rfl⟩ := kvSplits_unique hs h1
  obtain ⟨k, hk, hp⟩ := h2 e he
  refine ⟨k, hk, ?_⟩
  cases hx : sec k with
  | none => exact .inl rfl
  | some x =>
    rw [hx] at hp
    exact .inr (general_value (D := D) hp hw)

/-- Editor: the same. -/
theorem C73_editor {v : Nat} {s : Str} {sec : (Editor D).Section} (h : (Editor D).fromStr v s = .ok sec)
    {es : List (KVLine × Str)} {r : Str} (hs : KVSplits s es r) {e : KVLine × Str} (he : e ∈ es) (hw : ¬ NoWs e.1.value) :
    ∃ k : EKey, k.name = e.1.key ∧ k ∈ [EKey.distanceSpacing, .beatDivisor, .timelineZoom] := by
  obtain ⟨es', r', h1, -, -, h2, -⟩ := (C06_any_text_accepted (Editor_lawful D) v s sec).1 h
  obtain ⟨rfl, rfl⟩ := kvSplits_unique hs h1
  obtain ⟨k, hk, hp⟩ := h2 e he
  exact ⟨k, hk, editor_value (D := D) hp hw⟩

/-- Metadata: the ids take no white space (they panic), the texts keep all of it up to the end of the line. -/
theorem C73_metadata (v : Nat) (s : Str) :
    (Metadata.parse .title v s = .ok (some s) ∧ Metadata.parse .titleUnicode v s = .ok (some s) ∧
      Metadata.parse .artist v s = .ok (some s) ∧ Metadata.parse .artistUnicode v s = .ok (some s) ∧
      Metadata.parse .creator v s = .ok (some s) ∧ Metadata.parse .version v s = .ok (some s) ∧
      Metadata.parse .source v s = .ok (some s)) ∧
    (¬ NoWs s → Metadata.parse .beatmapID v s = .panic ∧ Metadata.parse .beatmapSetID v s = .panic) := by
  refine ⟨⟨rfl, rfl, rfl, rfl, rfl, rfl, rfl⟩, fun hs => ?_⟩
  have : idField s = .panic := by
    unfold idField
    cases e : parseI32 s with
    | ok n => exact absurd (i32_noWs e) hs
    | err _ => rfl
    | panic => rfl
  exact ⟨this, this⟩

/-- The decimal type takes no text with white space in it. -/
def DecNoWs (D : Type) [DecLib D] : Prop := ∀ s (d : D), DecLib.parse s = some d → NoWs s

/-- Then a decimal with white space in it is kept as text, blanks and all. -/
theorem C73_decimal (hD : DecNoWs D) {s : Str} (hs : ¬ NoWs s) :
    (Decimal.ofStr s : Decimal D) = .right s ∧ (Decimal.ofStr s : Decimal D).toStr = s := by
  have : (DecLib.parse s : Option D) = none := by
    cases e : (DecLib.parse s : Option D) with
    | none => rfl
    | some d => exact absurd (hD s d e) hs
  unfold Decimal.ofStr
  rw [this]
  exact ⟨rfl, rfl⟩

/-! ## Timing points and hit objects -/

theorem tpSet_noWs {s : Str} {x : TP.SampleSet} (h : TP.SampleSet.parse s = .ok x) : NoWs s := by
  unfold TP.SampleSet.parse at h
  cases e : parseI32 s with
  | ok n => exact i32_noWs e
  | err _ => rw [e] at h; cases h
  | panic => rw [e] at h; cases h

theorem timeReads_text (hD : DecNoWs D) {v : Nat} {p : Str} {t : Decimal D} (h : TimeReads v p t) (hp : ¬ NoWs p) : t = .right p := by
  unfold TimeReads at h
  cases e : (DecLib.parse p : Option D) with
  | none => rw [e] at h; exact h
  | some d => exact absurd (hD p d e) hp

/-- A timing point line from version 4 on: white space is refused in all columns but the first two (time and beat length),
and there it makes the column text. Up to version 3 the same holds for the two columns there are. -/
theorem C73_timing_point (hD : DecNoWs D) {v : Nat} {s : Str} {t : TimingPoint D} (h : TimingPoint.parse v s = .ok t) :
    (4 ≤ v → ∀ p ∈ (splitOnC ',' s).drop 2, NoWs p) ∧
    (∀ p, (splitOnC ',' s)[0]? = some p → ¬ NoWs p → t.time = .right p) ∧
    (4 ≤ v → ∀ p, (splitOnC ',' s)[1]? = some p → ¬ NoWs p → t.beatLength = .right p) := by
  have h' := C17_line_meaning.1 h
  generalize splitOnC ',' s = ps at h'
  have hv : ∀ {x : Str} {w : TP.Volume}, TP.Volume.parse x = .ok w → NoWs x := by
    intro x w hx
    unfold TP.Volume.parse at hx
    cases e : parseI32 x with
    | ok n => exact i32_noWs e
    | err _ => rw [e] at hx; cases hx
    | panic => rw [e] at hx; cases hx
  have hi : ∀ {x : Str} {w : TP.SampleIndex}, TP.SampleIndex.parse x = .ok w → NoWs x := by
    intro x w hx
    unfold TP.SampleIndex.parse at hx
    cases e : parseU32 x with
    | ok n => exact .num (parseU32_chars e).2
    | err _ => rw [e] at hx; cases hx
    | panic => rw [e] at hx; cases hx
  have he : ∀ {x : Str} {w : TP.Effects}, TP.Effects.parse x = .ok w → NoWs x := by
    intro x w hx
    unfold TP.Effects.parse at hx
    cases e : parseU32 x with
    | ok n => exact .num (parseU32_chars e).2
    | err _ => rw [e] at hx; cases hx
    | panic => rw [e] at hx; cases hx
  have head : ∀ {p b m ss si : Str}, TPHead v p b m ss si t → (NoWs m ∧ NoWs ss ∧ NoWs si) ∧
      (¬ NoWs p → t.time = .right p) ∧ (¬ NoWs b → t.beatLength = .right b) := by
    intro p b m ss si hh
    exact ⟨⟨i32_noWs hh.meter, tpSet_noWs hh.sampleSet, hi hh.sampleIndex⟩, timeReads_text hD hh.time,
      fun hb => by rw [hh.beatLength]; exact (C73_decimal hD hb).1⟩
  cases h' with
  | old h3 ht => exact ⟨fun h4 => absurd h3 (by omega), fun p hp hw => by cases hp; exact timeReads_text hD ht hw, fun h4 => absurd h3 (by omega)⟩
  | four _ hh =>
    obtain ⟨⟨h1, h2, h3⟩, h4, h5⟩ := head hh
    refine ⟨fun _ p hp => ?_, fun p hp => by cases hp; exact h4, fun _ p hp => by cases hp; exact h5⟩
    simp only [List.drop_succ_cons, List.drop_zero, List.mem_cons, List.not_mem_nil, or_false] at hp
    rcases hp with rfl | rfl | rfl <;> assumption
  | six _ hh hvol =>
    obtain ⟨⟨h1, h2, h3⟩, h4, h5⟩ := head hh
    refine ⟨fun _ p hp => ?_, fun p hp => by cases hp; exact h4, fun _ p hp => by cases hp; exact h5⟩
    simp only [List.drop_succ_cons, List.drop_zero, List.mem_cons, List.not_mem_nil, or_false] at hp
    rcases hp with rfl | rfl | rfl | rfl
    · assumption
    · assumption
    · assumption
    · exact hv hvol
  | seven _ hh hvol hu =>
    obtain ⟨⟨h1, h2, h3⟩, h4, h5⟩ := head hh
    refine ⟨fun _ p hp => ?_, fun p hp => by cases hp; exact h4, fun _ p hp => by cases hp; exact h5⟩
    simp only [List.drop_succ_cons, List.drop_zero, List.mem_cons, List.not_mem_nil, or_false] at hp
    rcases hp with rfl | rfl | rfl | rfl | rfl
    · assumption
    · assumption
    · assumption
    · exact hv hvol
    · exact zeroOne_noWs hu
  | eight _ hh hvol hu _ hef =>
    obtain ⟨⟨h1, h2, h3⟩, h4, h5⟩ := head hh
    refine ⟨fun _ p hp => ?_, fun p hp => by cases hp; exact h4, fun _ p hp => by cases hp; exact h5⟩
    simp only [List.drop_succ_cons, List.drop_zero, List.mem_cons, List.not_mem_nil, or_false] at hp
    rcases hp with rfl | rfl | rfl | rfl | rfl | rfl
    · assumption
    · assumption
    · assumption
    · exact hv hvol
    · exact zeroOne_noWs hu
    · exact he hef

theorem hoHead_sound {v : Nat} {x y t ty hs : Str} {n : Int32} {o : HitObject D} (h : HOHead v x y t ty hs n o) : NoWs hs := by
  have := h.hitsound
  unfold HO.HitSound.parse at this
  cases e : parseU8 hs with
  | ok n => exact u8_noWs e
  | err _ => rw [e] at this; cases this
  | panic => rw [e] at this; cases this

theorem hoHead_noWs (hD : DecNoWs D) {v : Nat} {x y t ty hs : Str} {n : Int32} {o : HitObject D} (h : HOHead v x y t ty hs n o) :
    NoWs ty ∧ NoWs hs ∧ (¬ NoWs x → o.position.x = .right x) ∧ (¬ NoWs y → o.position.y = .right y) ∧
      (¬ NoWs t → o.time = .right t) := by
  refine ⟨i32_noWs h.type, hoHead_sound h, fun hw => ?_, fun hw => ?_, timeReads_text hD h.time⟩
  · rw [h.x]; exact (C73_decimal hD hw).1
  · rw [h.y]; exact (C73_decimal hD hw).1

/-- A hit object line: white space is refused in the type and the hit sound and makes the position and the time text;
for sliders it is refused in the number of slides and makes the length text. -/
theorem C73_hit_object (hD : DecNoWs D) {v : Nat} {s : Str} {o : HitObject D} (h : HitObject.parse v s = .ok o) :
    ∃ x y t ty hs qs, splitOnC ',' s = x :: y :: t :: ty :: hs :: qs ∧ NoWs ty ∧ NoWs hs ∧
      (¬ NoWs x → o.position.x = .right x) ∧ (¬ NoWs y → o.position.y = .right y) ∧ (¬ NoWs t → o.time = .right t) ∧
      (∀ p, o.params = .slider p → ∃ c m l rs, qs = c :: m :: l :: rs ∧ NoWs m ∧ (¬ NoWs l → p.length = .right l)) ∧
      (∀ e, o.params = .spinner e → ∃ q rs, qs = q :: rs ∧ (¬ NoWs q → e = .right q)) := by
  have h' := HitObject.parse_iff.1 h
  generalize splitOnC ',' s = ps at h'
  cases h' with
  | circle hh _ hp =>
    obtain ⟨h1, h2, h3, h4, h5⟩ := hoHead_noWs hD hh
    exact ⟨_, _, _, _, _, _, rfl, h1, h2, h3, h4, h5, fun p e => (by rw [hp] at e; cases e), fun p e => by rw [hp] at e; cases e⟩
  | slider hh _ _ hp hq =>
    obtain ⟨h1, h2, h3, h4, h5⟩ := hoHead_noWs hD hh
    refine ⟨_, _, _, _, _, _, rfl, h1, h2, h3, h4, h5, fun p e => ?_, fun p e => by rw [hp] at e; cases e⟩
    rw [hp] at e
    cases e
    exact ⟨_, _, _, _, rfl, i32_noWs hq.slides, fun hw => by rw [hq.length]; exact (C73_decimal hD hw).1⟩
  | spinner hh _ _ _ hp he =>
    obtain ⟨h1, h2, h3, h4, h5⟩ := hoHead_noWs hD hh
    refine ⟨_, _, _, _, _, _, rfl, h1, h2, h3, h4, h5, fun p e => (by rw [hp] at e; cases e), fun p e => ?_⟩
    rw [hp] at e
    cases e
    exact ⟨_, _, rfl, timeReads_text hD he⟩
  | hold hh _ _ _ _ hp =>
    obtain ⟨h1, h2, h3, h4, h5⟩ := hoHead_noWs hD hh
    exact ⟨_, _, _, _, _, _, rfl, h1, h2, h3, h4, h5, fun p e => (by rw [hp] at e; cases e), fun p e => by rw [hp] at e; cases e⟩

theorem splitOnC_mid (c : Char) (s t : Str) : splitOnC c (s ++ c :: t) = splitOnC c s ++ splitOnC c t := by
  induction s with
  | nil => simp [splitOnC]
  | cons d s ih =>
    by_cases hd : d = c
    · simp [splitOnC, hd, ih]
    · obtain ⟨p, ps, hp⟩ := List.exists_cons_of_ne_nil (splitOnC_ne_nil c s)
      rw [hp] at ih
      simp [splitOnC, hd, ih, hp]

theorem splitOnC_tail {c : Char} {w : Str} (hw : c ∉ w) : ∀ {s : Str} {ps : List Str} {p : Str}, splitOnC c s = ps ++ [p] →
    splitOnC c (s ++ w) = ps ++ [p ++ w] := by
  intro s
  induction s with
  | nil =>
    intro ps p h
    have hs : splitOnC c w = [w] := splitOnC_single (fun d hd => by
      have : d ≠ c := fun e => hw (e ▸ hd)
      simpa using this)
    cases ps with
    | nil => cases h; exact hs
    | cons q qs => simp [splitOnC] at h
  | cons d s ih =>
    intro ps p h
    by_cases hd : d = c
    · subst hd
      rw [splitOnC, if_pos (by simp)] at h
      cases ps with
      | nil => exact absurd (List.cons.inj h).2 (splitOnC_ne_nil _ _)
      | cons q qs =>
        obtain ⟨rfl, h'⟩ := List.cons.inj h
        simp [splitOnC, ih (ps := qs) (p := p) h']
    · obtain ⟨a, as, ha⟩ := List.exists_cons_of_ne_nil (splitOnC_ne_nil c s)
      cases ps with
      | nil =>
        simp only [splitOnC, ha, hd, List.nil_append] at h
        have h' : d :: a = p ∧ as = [] := by simpa using h
        obtain ⟨rfl, rfl⟩ := h'
        have := ih (ps := []) (p := a) (by rw [ha]; rfl)
        simp only [List.nil_append] at this
        simp [splitOnC, this, hd]
      | cons q qs =>
        simp only [splitOnC, ha, hd] at h
        have h' : d :: a = q ∧ as = qs ++ [p] := by simpa using h
        obtain ⟨rfl, rfl⟩ := h'
        have := ih (ps := a :: qs) (p := p) (by rw [ha]; rfl)
        simp only [List.cons_append] at this
        simp [splitOnC, this, hd]

/-- Blanks and tabs after a last comma count as nothing: the circle has the default hit sample, which without the comma it
has not. Without the comma blanks at the end are refused. -/
theorem C73_after_last_comma {v : Nat} {s w : Str} {o : HitObject D} (h : HitObject.parse v s = .ok o)
    (hn : (splitOnC ',' s).length = 5) (hw : ∀ c ∈ w, c = ' ' ∨ c = '\t') :
    o.hitsample = none ∧ HitObject.parse v (s ++ ',' :: w) = .ok { o with hitsample := some HO.HitSample.default } ∧
      (w ≠ [] → ∀ o' : HitObject D, HitObject.parse v (s ++ w) ≠ .ok o') := by
  have h' := HitObject.parse_iff.1 h
  have hwc : ',' ∉ w := fun e => by rcases hw _ e with e | e <;> cases e
  have hw1 : splitOnC ',' w = [w] := splitOnC_single (fun c hc => by rcases hw c hc with rfl | rfl <;> decide)
  have hw2 : splitOnC ':' w = [w] := splitOnC_single (fun c hc => by rcases hw c hc with rfl | rfl <;> decide)
  have hb : blanks w := by
    refine List.all_eq_true.2 fun c hc => ?_
    rcases hw c hc with rfl | rfl <;> rfl
  generalize hps : splitOnC ',' s = ps at h' hn
  cases h' with
  | @circle x y t ty hs qs n _ hh h0 hp hq =>
    obtain rfl : qs = [] := by cases qs with
      | nil => rfl
      | cons => simp at hn
    refine ⟨hq, HitObject.parse_iff.2 ?_, fun hne o' ho' => ?_⟩
    · rw [splitOnC_mid, hps, hw1]
      refine .circle (qs := [w]) (n := n) ⟨hh.x, hh.y, hh.time, hh.type, hh.newCombo, hh.skip, hh.hitsound⟩ h0 hp ?_
      refine ⟨HO.HitSample.default, ?_, rfl⟩
      have : dropBlankLast (splitOnC ':' (join [','] [w])) = [] := by
        show dropBlankLast (splitOnC ':' w) = []
        rw [hw2]
        simp [dropBlankLast, hb]
      exact ⟨by rw [this]; rfl, by rw [this]; rfl, by rw [this]; rfl, by rw [this]; rfl, by rw [this]; rfl⟩
    · have := HitObject.parse_iff.1 ho'
      rw [splitOnC_tail hwc (ps := [x, y, t, ty]) (p := hs) hps] at this
      have hn : NoWs (hs ++ w) := by
        cases this with
        | circle hh' => exact hoHead_sound hh'
      obtain ⟨c, hc⟩ := List.exists_mem_of_ne_nil w hne
      have := hn c (List.mem_append_right _ hc)
      rcases hw c hc with rfl | rfl <;> cases this
  | slider => simp at hn
  | spinner => simp at hn
  | hold => simp at hn

end

/-- The concrete decimals take no white space. -/
theorem dec96_noWs : DecNoWs Dec96 := by
  have dig : ∀ {ov : IntErr} {m a n : Nat} {s : Str}, parseDigits ov m a s = .ok n → NoWs s := fun h =>
    .num ((parseDigits_chars h).mono fun c hc => by simp [isNumChar, hc])
  have body : ∀ {s : Str} {r}, Dec96.parseBody s = some r → NoWs s := by
    intro s r h
    unfold Dec96.parseBody at h
    simp only at h
    rw [← List.takeWhile_append_dropWhile (p := fun c => (digitVal c).isSome) (l := s)]
    split at h
    · cases h
    · split at h
      · rename_i hb
        split at h
        · rename_i hm
          rw [hb, List.append_nil]
          exact dig hm
        · cases h
      · rename_i hb
        split at h
        · rename_i hc
          split at h
          · rename_i hm
            rw [hb, hc.1]
            intro c hc
            rcases List.mem_append.1 hc with hc | hc
            · exact dig hm c (List.mem_append_left _ hc)
            · rcases List.mem_cons.1 hc with rfl | hc
              · decide
              · exact dig hm c (List.mem_append_right _ hc)
          · cases h
        · cases h
  intro s d h
  change Dec96.parse s = some d at h
  unfold Dec96.parse at h
  split at h
  · split at h
    · rename_i hb
      intro c hc
      rcases List.mem_cons.1 hc with rfl | hc
      · decide
      · exact body hb c hc
    · cases h
  · split at h
    · rename_i hb; exact body hb
    · cases h

example : ((General Dec96).fromStr 14 c!"Mode:0 ").isOk = false ∧ ((General Dec96).fromStr 14 c!"Mode: 0").isOk = true ∧
    ((General Dec96).fromStr 14 c!"AudioFilename:a b ").isOk = true ∧
    ((Editor Dec96).fromStr 14 c!"Bookmarks:1, 2").isOk = false ∧
    ((Editor Dec96).fromStr 14 c!"GridSize:1\r\nBeatDivisor: 1 2").isOk = true := by
  refine ⟨by rfl, by rfl, by rfl, by rfl, by rfl⟩

example : (TimingPoint.parse 14 c!" 5, 300,4,2,1,60,1,0" : Res _ (TimingPoint Dec96)).isOk = true := by decide
example : (TimingPoint.parse 14 c!"5,300, 4,2,1,60,1,0" : Res _ (TimingPoint Dec96)).isOk = false := by decide
example : ∀ t : TimingPoint Dec96, TimingPoint.parse 14 c!" 5, 300,4,2,1,60,1,0" = .ok t →
    t.time = .right c!" 5" ∧ t.beatLength = .right c!" 300" := fun t h =>
  ⟨(C73_timing_point dec96_noWs h).2.1 _ rfl (by decide), (C73_timing_point dec96_noWs h).2.2 (by decide) _ rfl (by decide)⟩

example : (HitObject.parse 14 c!" 1,2,3 ,1,0" : Res _ (HitObject Dec96)).isOk = true := by decide
example : (HitObject.parse 14 c!"1,2,3,1,0 " : Res _ (HitObject Dec96)).isOk = false := by decide
example : (HitObject.parse 14 c!"1,2,3,1,0, " : Res _ (HitObject Dec96)).isOk = true := by decide
example (o : HitObject Dec96) (h : HitObject.parse 14 c!"1,2,3,1,0" = .ok o) :
    HitObject.parse 14 c!"1,2,3,1,0, \t" = .ok { o with hitsample := some HO.HitSample.default } :=
  (C73_after_last_comma h (by decide) (w := c!" \t") (by decide)).2.1

example : Decimal.ofStr c!"1 " = (.right c!"1 " : Decimal Dec96) ∧ Decimal.ofStr c!"1" = (.left ⟨false, 1, 0⟩ : Decimal Dec96) :=
  ⟨(C73_decimal dec96_noWs (by decide)).1, by decide⟩

private theorem okOf {ε α : Type} : {r : Res ε α} → r.isOk = true → ∃ a, r = .ok a
  | .ok a, _ => ⟨a, rfl⟩

private theorem splitsOf {s : Str} {es : List (KVLine × Str)} (h : getColonFieldValueLines s = .ok [] (es.map toFieldLine)) :
    KVSplits s es [] := by
  obtain ⟨es', h1, h2⟩ := getFields_iff.1 h
  rw [toFieldLine_inj h2]; exact h1

private def blankGeneral : List (KVLine × Str) :=
  [(⟨c!"Mode", c!" ", c!"1"⟩, ['\n']), (⟨c!"AudioFilename", [], c!"a b.mp3"⟩, [])]

/-- The only field of this text with a blank in its value is a text. -/
example : ∃ sec, (General Dec96).fromStr 14 c!"Mode: 1\nAudioFilename:a b.mp3" = .ok sec ∧ (∀ e ∈ blankGeneral, NoWs e.1.key) ∧
    ∃ k : GKey, k.name = c!"AudioFilename" ∧ (sec k = none ∨
      k ∈ [GKey.audioFilename, .audioHash, .skinPreference, .stackLeniency, .editorDistanceSpacing]) := by
  obtain ⟨sec, h⟩ := okOf (r := (General Dec96).fromStr 14 c!"Mode: 1\nAudioFilename:a b.mp3") (by rfl)
  have hs : KVSplits c!"Mode: 1\nAudioFilename:a b.mp3" blankGeneral [] := splitsOf (by decide)
  exact ⟨sec, h, C73_keys (General_lawful Dec96) (by intro k; cases k <;> exact (by decide)) h hs,
    C73_general h hs (e := (⟨c!"AudioFilename", [], c!"a b.mp3"⟩, [])) (by decide) (by decide)⟩

example : ∃ sec, (Editor Dec96).fromStr 14 c!"GridSize: 8\nBeatDivisor:4 x" = .ok sec ∧
    ∃ k : EKey, k.name = c!"BeatDivisor" ∧ k ∈ [EKey.distanceSpacing, .beatDivisor, .timelineZoom] := by
  obtain ⟨sec, h⟩ := okOf (r := (Editor Dec96).fromStr 14 c!"GridSize: 8\nBeatDivisor:4 x") (by rfl)
  have hs : KVSplits c!"GridSize: 8\nBeatDivisor:4 x" [(⟨c!"GridSize", c!" ", c!"8"⟩, ['\n']), (⟨c!"BeatDivisor", [], c!"4 x"⟩, [])] [] :=
    splitsOf (by decide)
  exact ⟨sec, h, C73_editor h hs (e := (⟨c!"BeatDivisor", [], c!"4 x"⟩, [])) (by decide) (by decide)⟩

example : Metadata.parse .beatmapID 14 c!" 1" = .panic := ((C73_metadata 14 c!" 1").2 (by decide)).1

example (o : HitObject Dec96) (h : HitObject.parse 14 c!" 1,2,3 ,1,0" = .ok o) :
    ∃ x y t ty hs qs, splitOnC ',' c!" 1,2,3 ,1,0" = x :: y :: t :: ty :: hs :: qs ∧ (¬ NoWs x → o.position.x = .right x) := by
  obtain ⟨x, y, t, ty, hs, qs, h1, -, -, h2, -⟩ := C73_hit_object dec96_noWs h
  exact ⟨x, y, t, ty, hs, qs, h1, h2⟩

end Osu
