/-
Comparison of texts: C48, C49.
-/
import Verif.Proof.Trimmer
import Verif.Props.FileText

namespace Osu
open Trimmer

/-! ## C48: what the comparison ignores -/

/-- The exact outcome of trimming: lines are cleaned and empty ones dropped; of the lines before the first section only a
format line in the first place is kept; lines with a colon lose all blanks; sections with colons in all lines are sorted. -/
theorem C48_exact (s t : Str) : osuStrTrimmer s = t ↔ Trimmed s t := trimmed_iff

example : Trimmed c!"b : 1\r\n\n a" (osuStrTrimmer c!"b : 1\r\n\n a") := (C48_exact _ _).1 rfl

/-- Comparing is an equivalence. -/
theorem C48_equivalence : Equivalence fun s t => osuStrEq s t = true :=
  ⟨fun _ => osuStrEq_iff.2 rfl, fun h => osuStrEq_iff.2 (osuStrEq_iff.1 h).symm,
    fun h h' => osuStrEq_iff.2 ((osuStrEq_iff.1 h).trans (osuStrEq_iff.1 h'))⟩

example : osuStrEq c!"a : 1" c!"a:1" = true ∧ osuStrEq c!"a:1" c!"a : 1" = true := ⟨by decide, C48_equivalence.symm (by decide)⟩

/-- Blanks and blank lines at the start or the end of a line make no difference. -/
theorem C48_blanks {a b w : Str} (hw : ∀ c ∈ w, isWs c = true)
    (h : (a = [] ∨ a.getLast? = some '\n') ∨ (b = [] ∨ b.head? = some '\n')) : osuStrEq (a ++ w ++ b) (a ++ b) = true :=
  osuStrEq_iff.2 (trimmer_congr (cleanLines_insert_ws hw h))

/-- Carriage returns before the line feeds make no difference. -/
theorem C48_crlf (s : Str) : osuStrEq (s.flatMap fun c => if c = '\n' then ['\r', '\n'] else [c]) s = true :=
  osuStrEq_iff.2 (trimmer_congr (cleanLines_crlf s))

example : osuStrEq c!"a\r\nb\r\n" c!"a\nb\n" = true := C48_crlf c!"a\nb\n"

/-- A byte order mark that is not next to a blank makes no difference. -/
theorem C48_bom {a b : Str} (ha : ∀ c, a.getLast? = some c → isWs c = false ∨ c = '\n')
    (hb : ∀ c, b.head? = some c → isWs c = false ∨ c = '\n') : osuStrEq (a ++ '\uFEFF' :: b) (a ++ b) = true :=
  osuStrEq_iff.2 (trimmer_congr (cleanLines_bom ha hb))

/-- The order of the lines of a section in which all lines have a colon makes no difference. -/
theorem C48_order {s t : Str} {p b b' q : List Str} {h : Str} (hs : cleanLines s = p ++ h :: (b ++ q))
    (ht : cleanLines t = p ++ h :: (b' ++ q)) (hh : LooksHeader h) (hb : ∀ l ∈ b, ':' ∈ l ∧ ¬LooksHeader l) (hp : b.Perm b')
    (hq : ∀ x, q.head? = some x → LooksHeader x) : osuStrEq s t = true :=
  osuStrEq_iff.2 (trimmer_order hs ht hh hb hp hq)

/-- Trimming twice is the same as trimming once, if no byte order mark is next to a blank. -/
theorem C48_idempotent {s : Str} (hs : BomOK s) : osuStrTrimmer (osuStrTrimmer s) = osuStrTrimmer s := trimmer_twice hs

/-- So it is for all texts without byte order marks. -/
theorem C48_idempotent_plain {s : Str} (hs : '\uFEFF' ∉ s) : osuStrTrimmer (osuStrTrimmer s) = osuStrTrimmer s :=
  trimmer_twice (bomOK_none hs)

/-- A text is equal to its trimmed form. -/
theorem C48_normal_form {s : Str} (hs : BomOK s) : osuStrEq (osuStrTrimmer s) s = true := osuStrEq_iff.2 (trimmer_twice hs)

/-- For all texts, trimming once more after the second time changes nothing. -/
theorem C48_third (s : Str) : osuStrTrimmer (osuStrTrimmer (osuStrTrimmer s)) = osuStrTrimmer (osuStrTrimmer s) :=
  trimmer_twice (bomOK_none (trimmer_bom s))

example : osuStrTrimmer (osuStrTrimmer (osuStrTrimmer c!"b\n[x]\na\n\n")) = osuStrTrimmer (osuStrTrimmer c!"b\n[x]\na\n\n") := C48_third _

/-- A byte order mark before a blank at the start of a line: the blank is kept the first time. -/
theorem C48_false_bom : osuStrTrimmer (osuStrTrimmer c!"[A]\n\uFEFF b") ≠ osuStrTrimmer c!"[A]\n\uFEFF b" ∧
    osuStrEq c!"[A]\n\uFEFF b" c!"[A]\n b" = false := by decide

example : osuStrTrimmer c!"osu file format v14\r\n\r\n  [B]\r\nb : 2 3\r\n a:1\r\n[C]\r\nx y\r\nc : 1\r\na:b" =
    c!"osu file format v14\n[B]\na:1\nb:23\n[C]\nx y\nc:1\na:b" := by decide
example : cleanLines c!"[B]\nb : 2 3\n a:1\n[C]\nx y" = [] ++ c!"[B]" :: ([c!"b : 2 3", c!"a:1"] ++ [c!"[C]", c!"x y"]) := by decide
example : BomOK c!"\uFEFFosu file format v14\n[A]\na:b" := by unfold BomOK; decide

/-! ## C49: what the comparison does not ignore -/

/-- Two texts are equal exactly if they have the same format line, the same headers in the same order, and for each section
the same lines up to blanks in lines with a colon, and up to the order if all lines have a colon. -/
theorem C49_exact {s t : Str} (hs : BomOK s) (ht : BomOK t) : osuStrEq s t = true ↔
    ∃ pre bs pre' bs', TrimLayout (cleanLines s) pre bs ∧ TrimLayout (cleanLines t) pre' bs' ∧ keptPre pre = keptPre pre' ∧
      SameSections bs bs' := by
  constructor
  · intro h
    obtain ⟨pre, bs, l1⟩ := trimLayout_ex (cleanLines s)
    obtain ⟨pre', bs', l2⟩ := trimLayout_ex (cleanLines t)
    exact ⟨pre, bs, pre', bs', l1, l2, (eq_layouts hs ht l1 l2).1 h⟩
  · rintro ⟨pre, bs, pre', bs', l1, l2, h⟩
    exact (eq_layouts hs ht l1 l2).2 h

/-- The parts of a text that are compared are determined by it. -/
theorem C49_layout (s : Str) : ∃ pre bs, TrimLayout (cleanLines s) pre bs ∧
    ∀ pre' bs', TrimLayout (cleanLines s) pre' bs' → pre' = pre ∧ bs' = bs := by
  obtain ⟨pre, bs, l1⟩ := trimLayout_ex (cleanLines s)
  exact ⟨pre, bs, l1, fun _ _ l2 => trimLayout_unique l2 l1⟩

example : ∃ pre bs, TrimLayout (cleanLines c!"v\n[A]\nx:1\n[B]") pre bs ∧
    ∀ pre' bs', TrimLayout (cleanLines c!"v\n[A]\nx:1\n[B]") pre' bs' → pre' = pre ∧ bs' = bs := C49_layout _

/-- In particular the headers are the same, and in a section with a line without colon so are the lines without colon. -/
theorem C49_plain_lines {s t : Str} (hs : BomOK s) (ht : BomOK t) (h : osuStrEq s t = true) {pre pre' : List Str}
    {bs bs' : List (Str × List Str)} (l1 : TrimLayout (cleanLines s) pre bs) (l2 : TrimLayout (cleanLines t) pre' bs') :
    (bs.map fun b => (b.1, b.2.filter fun l => !l.contains ':')) = bs'.map fun b => (b.1, b.2.filter fun l => !l.contains ':') := by
  have h := ((eq_layouts hs ht l1 l2).1 h).2
  clear l1 l2
  have aux : ∀ b : List Str, (b.map squeeze).filter (fun l => !l.contains ':') = b.filter fun l => !l.contains ':' := by
    intro b
    induction b with
    | nil => rfl
    | cons l b ih =>
      rw [List.map_cons, List.filter_cons, List.filter_cons, ih]
      by_cases hc : ':' ∈ l
      · rw [if_neg (by simpa using squeeze_colon.2 hc), if_neg (by simpa using hc)]
      · have : squeeze l = l := by unfold squeeze; rw [if_neg hc]
        rw [this]
  have aux2 : ∀ b : List Str, (∀ l ∈ b, ':' ∈ l) → (b.filter fun l => !l.contains ':') = [] := by
    intro b hb
    rw [List.filter_eq_nil_iff]
    intro l hl
    simpa using hb l hl
  induction h with
  | nil => rfl
  | cons hb hs ih =>
    simp only [List.map_cons, ih, List.cons.injEq, Prod.mk.injEq, true_and, and_true]
    rcases hb with hb | ⟨hb, hp⟩
    · rw [← aux, hb, aux]
    · rw [aux2 _ hb, aux2]
      intro l hl
      obtain ⟨x, hx, e⟩ := List.mem_map.1 (hp.mem_iff.2 (List.mem_map_of_mem hl))
      rw [← squeeze_colon, ← e, squeeze_colon]; exact hb x hx

section
attribute [local instance] asciiUni

/-- Files with different tags are equal: blanks in values are ignored. -/
theorem C49_false_values : ∃ s t, ∃ f g : OsuFile Dec96, osuStrEq s t = true ∧ OsuFile.parse s = .ok f ∧ OsuFile.parse t = .ok g ∧
    f.shw ≠ g.shw := by
  obtain ⟨f, hf⟩ := Res.of_isOk (r := (OsuFile.parse c!"osu file format v14\n[Metadata]\nTags:a b" : Res _ (OsuFile Dec96))) (by decide)
  obtain ⟨g, hg⟩ := Res.of_isOk (r := (OsuFile.parse c!"osu file format v14\n[Metadata]\nTags:ab" : Res _ (OsuFile Dec96))) (by decide)
  refine ⟨_, _, f, g, by decide, hf, hg, ?_⟩
  have h1 : (OsuFile.parse c!"osu file format v14\n[Metadata]\nTags:a b" >>= fun f : OsuFile Dec96 => Res.ok f.shw : Res _ (Option Str)) =
    .ok (some c!"osu file format v14\n\n[Metadata]\nTags:a b") := by decide
  have h2 : (OsuFile.parse c!"osu file format v14\n[Metadata]\nTags:ab" >>= fun f : OsuFile Dec96 => Res.ok f.shw : Res _ (Option Str)) =
    .ok (some c!"osu file format v14\n\n[Metadata]\nTags:ab") := by decide
  rw [hf] at h1; rw [hg] at h2
  have h1 := Res.ok.inj h1
  have h2 := Res.ok.inj h2
  rw [h1, h2]; decide

/-- Files with their hit objects in another order are equal, because every line has a colon. -/
theorem C49_false_hit_objects : osuStrEq c!"osu file format v14\n[HitObjects]\n1,2,3,1,0,0:0:0:0:\n0,0,9,1,0,0:0:0:0:"
    c!"osu file format v14\n[HitObjects]\n0,0,9,1,0,0:0:0:0:\n1,2,3,1,0,0:0:0:0:" = true := by decide

/-- What comes before the first section, other than a format line in the first place, is ignored. -/
theorem C49_false_before : osuStrEq c!"a\nosu file format v14\n[A]\nb" c!"c\n[A]\nb" = true := by decide

example : osuStrEq c!"[A]\nb c" c!"[A]\nbc" = false := by decide
example : osuStrEq c!"[A]\nb\nc:1\na:1" c!"[A]\nb\na:1\nc:1" = false := by decide

end

/-! The cases of the theorems above. -/

example : osuStrEq (c!"a: b\n" ++ c!" \t" ++ c!"[C]") (c!"a: b\n" ++ c!"[C]") = true :=
  C48_blanks (by decide) (.inl (.inr (by decide)))

example : osuStrEq (c!"a:" ++ '﻿' :: c!"b") (c!"a:" ++ c!"b") = true := C48_bom (by decide) (by decide)

example : osuStrEq c!"v14\n[General]\nMode: 1\nA: 2\n[Events]" c!"v14\n[General]\n A: 2\n\nMode: 1\n[Events]" = true :=
  C48_order (p := [c!"v14"]) (h := c!"[General]") (b := [c!"Mode: 1", c!"A: 2"]) (b' := [c!"A: 2", c!"Mode: 1"]) (q := [c!"[Events]"])
    (by decide) (by decide) (by decide) (by decide) (.swap _ _ _) (by decide)

example : osuStrTrimmer (osuStrTrimmer c!"[A]\nx: 1\nb:\n") = osuStrTrimmer c!"[A]\nx: 1\nb:\n" := C48_idempotent_plain (by decide)

/-- A byte order mark inside a line does no harm; next to a blank it would. -/
private theorem bomText_ok : BomOK c!"[A]\nx:﻿1\nb: " := by unfold BomOK; decide

example : osuStrTrimmer (osuStrTrimmer c!"[A]\nx:﻿1\nb: ") = osuStrTrimmer c!"[A]\nx:﻿1\nb: " := C48_idempotent bomText_ok
example : osuStrEq (osuStrTrimmer c!"[A]\nx:﻿1\nb: ") c!"[A]\nx:﻿1\nb: " = true := C48_normal_form bomText_ok
example : ¬BomOK c!"a ﻿" := by unfold BomOK; decide

/-- The two texts show the same sections. -/
example : ∃ pre bs pre' bs', TrimLayout (cleanLines c!"[A]\nx:﻿1\nb: ") pre bs ∧ TrimLayout (cleanLines c!"[A]\nb:\nx :1") pre' bs' ∧
    keptPre pre = keptPre pre' ∧ SameSections bs bs' :=
  (C49_exact bomText_ok (by unfold BomOK; decide)).1 (by decide)

example : ([(c!"[A]", [c!"x"])].map fun b => (b.1, b.2.filter fun l => !l.contains ':')) =
    [(c!"[A]", [c!"x"])].map fun b => (b.1, b.2.filter fun l => !l.contains ':') :=
  C49_plain_lines (s := c!"junk\n[A]\nx") (t := c!"[A]\n x \n") (pre := [c!"junk"]) (pre' := []) (by unfold BomOK; decide)
    (by unfold BomOK; decide) (by decide) ⟨by decide, by decide, by decide, by decide⟩ ⟨by decide, by decide, by decide, by decide⟩

end Osu
