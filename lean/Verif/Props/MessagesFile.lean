/-
C66, continued: the texts of the errors that concern a file as a whole.
-/
import Verif.Props.Messages
import Verif.Props.Trimmer

namespace Osu
open SB Ev Parser

/-- The errors that concern the file as a whole, not the content of a section. -/
def FileErr.whole : FileErr → Bool
  | .invalidFileVersion | .fileVersionDefinedWrong | .unexpectedLine | .duplicateSections | .unknownSection => true
  | _ => false

/-- No text of an error within a section starts like one of the texts for the whole file. -/
def sectionLike (m : Str) : Bool :=
  [c!"Invalid file version", c!"File version", c!"Unexpected line", c!"There are multiple", c!"There is an unknown"].all
    fun p => !p.isPrefixOf m

theorem IntErr.msg_sect (e : IntErr) : sectionLike e.msg = true := by cases e <;> decide
theorem FieldErr.msg_sect (e : FieldErr) : sectionLike e.msg = true := by
  cases e with
  | parseInt e => exact e.msg_sect
  | zeroOne e => cases e with
    | parseInt e => exact e.msg_sect
    | invalidValue => decide
  | modeInt e => exact e.msg_sect
  | countdownInt e => exact (by decide : sectionLike c!"There was a problem parsing the `str` as an `Integer`" = true)
  | _ => decide

theorem PushErr.msg_sect (e : PushErr) : sectionLike e.msg = true := by
  unfold PushErr.msg sectionLike
  simp [List.isPrefixOf]

theorem EvErr.msg_sect (e : EvErr) : sectionLike e.msg = true := by
  cases e with
  | storyboardCmdWithNoSprite => decide
  | unknownEventType => decide
  | push e => exact PushErr.msg_sect e
  | command e => cases e <;> decide
  | object e => cases e <;> decide
  | audioSample e => cases e <;> decide
  | background e | video e | break_ e | colourTransformation e | spriteLegacy e | animationLegacy e | sampleLegacy e =>
    cases e <;> decide

theorem FileErr.msg_sect {e : FileErr} (h : e.whole = false) : sectionLike e.msg = true := by
  cases e with
  | general e => cases e with
    | field e => exact e.msg_sect
    | _ => decide
  | editor e => cases e with
    | field e => exact e.msg_sect
    | _ => decide
  | metadata e => cases e with
    | field e => exact e.msg_sect
    | _ => decide
  | difficulty e => cases e with
    | field e => exact e.msg_sect
    | _ => decide
  | events e => exact EvErr.msg_sect e
  | timingPoints e => cases e <;> decide
  | colours e => cases e with
    | rgb e => cases e <;> decide
    | _ => decide
  | hitobjects e => cases e <;> decide
  | _ => cases h

/-- The text of an error that concerns the file as a whole is the text of no other error of a file. -/
theorem C66_whole {a b : FileErr} (ha : a.whole = true) (h : a.msg = b.msg) : a = b := by
  have key : ∀ c ∈ [FileErr.invalidFileVersion, .fileVersionDefinedWrong, .unexpectedLine, .duplicateSections, .unknownSection],
      ∀ d ∈ [FileErr.invalidFileVersion, .fileVersionDefinedWrong, .unexpectedLine, .duplicateSections, .unknownSection],
        c.msg = d.msg → c = d := by decide
  have hs : ∀ c ∈ [FileErr.invalidFileVersion, .fileVersionDefinedWrong, .unexpectedLine, .duplicateSections, .unknownSection],
      sectionLike c.msg = false := by decide
  have hm : ∀ c : FileErr, c.whole = true →
      c ∈ [FileErr.invalidFileVersion, .fileVersionDefinedWrong, .unexpectedLine, .duplicateSections, .unknownSection] := by
    intro c hc
    cases c <;> simp [FileErr.whole] at hc ⊢
  cases hb : b.whole
  · have := FileErr.msg_sect hb
    rw [← h, hs a (hm a ha)] at this
    cases this
  · exact key a (hm a ha) b (hm b hb) h

/-- The text of the error about versions names the first and the last version that are accepted. -/
theorem C66_versions [UniLib] {D : Type} [DecLib D] :
    ∃ lo hi, FileErr.invalidFileVersion.msg =
        c!"Invalid file version, expected versions from " ++ natToStr lo ++ c!" ~ " ++ natToStr hi ∧
      ∀ v, (OsuFile.parse (c!"osu file format v" ++ natToStr v) : Res (LErr FileErr) (OsuFile D)).isOk = true ↔
        lo ≤ v ∧ v ≤ hi := by
  refine ⟨3, 14, rfl, fun v => ?_⟩
  have hv : Versioned (c!"osu file format v" ++ natToStr v) [] (natToStr v) [] := by
    refine ⟨⟨[], .inl rfl, by simp⟩, (fun c hc => by cases hc), ?_, ?_, .inl rfl⟩
    · intro hc; have := natToStr_digits v _ hc; revert this; decide
    · intro hc; have := natToStr_digits v _ hc; revert this; decide
  by_cases hk : 3 ≤ v ∧ v ≤ 14
  · rw [parse_versioned hv (known_nat hk)]
    exact ⟨fun _ => hk, fun _ => rfl⟩
  · rw [parse_badVersion hv]
    · simp [hk, Res.isOk]
    · rintro ⟨w, hw, hw'⟩
      have h1 := (parseUnsigned_ok_iff (max v w) _ _).2 ⟨hw, by omega⟩
      rw [parseUnsigned_natToStr (max v w) v (by omega)] at h1
      cases h1
      exact hk hw'

section
attribute [local instance] asciiUni

example : (OsuFile.parse c!"osu file format v15" : Res _ (OsuFile Dec96)).toErr.map (LErr.shw FileErr.msg) =
    some c!"Line 1, Invalid file version, expected versions from 3 ~ 14" := by decide
example : FileErr.whole .unknownSection = true ∧
    FileErr.msg .unknownSection ≠ FileErr.msg .unexpectedLine := by decide

end

/-! ## C49: texts of errors under the comparison of files -/

/-- Texts without section headers are told apart by nothing but a format line in the first place. -/
theorem C49_no_sections {s t : Str} (hs : ∀ l ∈ cleanLines s, ¬LooksHeader l) (ht : ∀ l ∈ cleanLines t, ¬LooksHeader l)
    (h : keptPre (cleanLines s) = keptPre (cleanLines t)) : Trimmer.osuStrEq s t = true := by
  refine osuStrEq_iff.2 ?_
  have key : ∀ u, (∀ l ∈ cleanLines u, ¬LooksHeader l) → Trimmer.osuStrTrimmer u = join ['\n'] (keptPre (cleanLines u) ++ []) :=
    fun u hu => trimmed_iff.2 ⟨cleanLines u, [], [], ⟨by simp, hu, nofun, nofun⟩, .nil, rfl⟩
  rw [key s hs, key t ht, h]

theorem trimEnd_head {c : Char} (hc : isWs c = false) (s : Str) : ∃ r, trimEnd (c :: s) = c :: r := by
  unfold trimEnd
  rw [List.reverse_cons, List.dropWhile_append]
  split
  · exact ⟨[], by simp [hc]⟩
  · exact ⟨(List.dropWhile isWs s.reverse).reverse, by simp⟩

theorem cleanLines_message {s : Str} (h : '\n' ∉ 'L' :: s) : ∀ l ∈ cleanLines ('L' :: s), l.head? = some 'L' := by
  have hl : lines ('L' :: s) = ['L' :: s] := lines_single (fun c hc => by
    cases hd : c == '\n' with
    | false => simp [hd]
    | true => exact absurd (by rwa [beq_iff_eq.1 hd] at hc) h) (by simp)
  unfold cleanLines
  rw [hl]
  intro l hm
  obtain ⟨hm, -⟩ := List.mem_filter.1 hm
  obtain rfl := List.mem_singleton.1 hm
  obtain ⟨r, hr⟩ := trimEnd_head (c := 'L') (by decide) s
  unfold cleanLine trim
  rw [show trimStart ('L' :: s) = 'L' :: s from rfl, hr]
  rfl

/-- The texts of any two errors of .osu or .osb files are equal for `osu_str_eq`, whatever lines and causes they name. So a test
that compares them with `assert_eq_osu_str` (src/tests/osu_files/mod.rs:226-284) says nothing about the line or the cause. -/
theorem C49_messages (a b : LErr FileErr) (x y : LErr OsbErr) :
    Trimmer.osuStrEq (a.shw FileErr.msg) (b.shw FileErr.msg) = true ∧ Trimmer.osuStrEq (x.shw OsbErr.msg) (y.shw OsbErr.msg) = true := by
  have key : ∀ s t : Str, '\n' ∉ 'L' :: s → '\n' ∉ 'L' :: t → Trimmer.osuStrEq ('L' :: s) ('L' :: t) = true := by
    intro s t hs ht
    have hk : ∀ u : Str, '\n' ∉ 'L' :: u → keptPre (cleanLines ('L' :: u)) = [] := by
      intro u hu
      have := cleanLines_message hu
      cases hc : cleanLines ('L' :: u) with
      | nil => rfl
      | cons l ls =>
        have hl := this l (by rw [hc]; simp)
        unfold keptPre
        dsimp only
        rw [if_neg]
        rintro ⟨z, rfl⟩
        simp at hl
    have hh : ∀ u : Str, '\n' ∉ 'L' :: u → ∀ l ∈ cleanLines ('L' :: u), ¬LooksHeader l := by
      intro u hu l hl h
      have := cleanLines_message hu l hl
      rw [h.1] at this
      exact absurd this (by decide)
    exact C49_no_sections (hh s hs) (hh t ht) (by rw [hk s hs, hk t ht])
  exact ⟨key _ _ (C66_one_line a []).1 (C66_one_line b []).1, key _ _ (C66_one_line_osb x []).1 (C66_one_line_osb y []).1⟩

example : (⟨20, .events (.command .unknownCommandType)⟩ : LErr FileErr).shw FileErr.msg = c!"Line 21, Unknown command type" := by decide
example : keptPre (cleanLines c!"abc\n//x") = keptPre (cleanLines c!"z") ∧ ∀ l ∈ cleanLines c!"abc\n//x", ¬LooksHeader l := by decide

example (e : FileErr) (h : e.msg = FileErr.msg .unexpectedLine) : e = .unexpectedLine :=
  (C66_whole (by decide) h.symm).symm

example : Trimmer.osuStrEq c!"abc\n//x" c!"z" = true := C49_no_sections (by decide) (by decide) (by decide)

end Osu
