/-
C40 append_osb, C44 repeated and unknown sections, C45 version header, C46 line numbers, C47 panics, C51 error messages,
C53 what is ignored.
-/
import Verif.Proof.FileLines
import Verif.Proof.Dec96
import Verif.Model.Error
import Verif.Props.Sections

namespace Osu
open Parser Ev

/-! ## C51: messages -/

/-- An error of a section that begins at line `k` is reported `k` lines further down, with the same content. -/
theorem C51_nested {E E2 α : Type} (into : E → E2) (r : Res (LErr E) α) (k : Nat) (e : LErr E2) :
    processingLine into r k = .err e ↔ ∃ e', r = .err e' ∧ e.line = e'.line + k ∧ e.error = into e'.error := by
  cases r with
  | ok a => exact ⟨nofun, fun ⟨_, h, _⟩ => nomatch h⟩
  | panic => exact ⟨nofun, fun ⟨_, h, _⟩ => nomatch h⟩
  | err e0 =>
    constructor
    · intro h; cases h; exact ⟨e0, rfl, rfl, rfl⟩
    · rintro ⟨e', h, h1, h2⟩
      cases h
      obtain ⟨l, x⟩ := e
      simp only at h1 h2
      subst h1; subst h2; rfl

example : processingLine (id : Nat → Nat) (.err ⟨2, 7⟩ : Res (LErr Nat) Nat) 5 = .err ⟨7, 7⟩ := by decide

/-- An outcome given a line keeps its value and its error, and the error carries that line. Converting the inner error later
changes neither its line nor its value; converting at once, or moving a section that begins at line 0, does the same. -/
theorem C51_given_line {E E2 α : Type} (into : E → E2) (r : Res E α) (q : Res (LErr E) α) (k : Nat) :
    (∀ a, newFromResult r k = .ok a ↔ r = .ok a) ∧
    (∀ n x, newFromResult r k = .err ⟨n, x⟩ ↔ n = k ∧ r = .err x) ∧
    (∀ a, errorResultInto into q = .ok a ↔ q = .ok a) ∧
    (∀ n y, errorResultInto into q = .err ⟨n, y⟩ ↔ ∃ x, q = .err ⟨n, x⟩ ∧ into x = y) ∧
    newFromResultInto into r k = errorResultInto into (newFromResult r k) ∧
    processingLine into q 0 = errorResultInto into q := by
  refine ⟨?_, ?_, ?_, ?_, ?_, ?_⟩
  · intro a; cases r <;> simp [newFromResult]
  · intro n x; cases r <;> simp [newFromResult, eq_comm]
  · intro a; cases q <;> simp [errorResultInto]
  · intro n y
    rcases q with a | ⟨l, e⟩ | _
    · simp [errorResultInto]
    · constructor
      · intro h; cases h; exact ⟨e, rfl, rfl⟩
      · rintro ⟨x, h, rfl⟩; cases h; rfl
    · simp [errorResultInto]
  · cases r <;> rfl
  · cases q <;> rfl

example : newFromResult (.err 4 : Res Nat Nat) 7 = .err ⟨7, 4⟩ ∧
    errorResultInto (· + 1) (newFromResult (.err 4 : Res Nat Nat) 7) = .err ⟨7, 5⟩ := by decide

/-- Both messages begin with the number of the line, counted from one. -/
theorem C51_line_number {E : Type} (shw : E → Str) (e : LErr E) (input : Str) :
    ∃ a b, e.shw shw = c!"Line " ++ a ++ c!", " ++ shw e.error ∧ IsUNumeral a (e.line + 1) ∧
      e.shwWithLine shw input = c!"Line " ++ a ++ c!": " ++ b ++ c!", " ++ shw e.error ∧
      (e.line < (lines input).length → (lines input)[e.line]? = some b) ∧
      ((lines input).length ≤ e.line → b = []) := by
  refine ⟨natToStr (e.line + 1), (lines input)[e.line]?.getD [], rfl, ?_, rfl, ?_, ?_⟩
  · exact ((parseUnsigned_ok_iff (e.line + 1) _ _).1 (parseUnsigned_natToStr (e.line + 1) (e.line + 1) (Nat.le_refl _))).1
  · intro h
    rw [List.getElem?_eq_getElem h]; rfl
  · intro h
    rw [List.getElem?_eq_none h]; rfl

example : (⟨1, ()⟩ : LErr Unit).shwWithLine (fun _ => c!"bad") c!"a\r\nb,c\n" = c!"Line 2: b,c, bad" := by decide
example : (⟨7, ()⟩ : LErr Unit).shwWithLine (fun _ => c!"bad") c!"a\nb" = c!"Line 8: , bad" := by decide

section
variable {D : Type} [DecLib D] [UniLib]

/-! ## C40: append_osb -/

/-- `append_osb` leaves the value as it was unless it succeeds; then only the storyboard is new. -/
theorem C40_all_or_nothing (f : OsuFile D) (s : Str) :
    ((f.appendOsb s).2 = .ok () → ∃ o, Osb.parse f.version s = .ok o ∧ (f.appendOsb s).1 = { f with osb := o }) ∧
    ((f.appendOsb s).2 ≠ .ok () → (f.appendOsb s).1 = f) ∧
    (∀ e, (f.appendOsb s).2 = .err e ↔ (Osb.parse f.version s : Res _ (Option (Osb D))) = .err e) := by
  unfold OsuFile.appendOsb
  cases h : (Osb.parse f.version s : Res (LErr OsbErr) (Option (Osb D))) with
  | ok o => exact ⟨fun _ => ⟨o, rfl, rfl⟩, fun h => absurd rfl h, fun e => ⟨nofun, nofun⟩⟩
  | err e => exact ⟨nofun, fun _ => rfl, fun e' => ⟨fun h => by cases h; rfl, fun h => by cases h; rfl⟩⟩
  | panic => exact ⟨nofun, fun _ => rfl, fun e => ⟨nofun, nofun⟩⟩

/-- The text of the file does not depend on the storyboard. -/
theorem C40_text (f : OsuFile D) (s : Str) : (f.appendOsb s).1.shw = f.shw := by
  unfold OsuFile.appendOsb
  cases (Osb.parse f.version s : Res (LErr OsbErr) (Option (Osb D))) <;> rfl

example : ((OsuFile.new 14 : OsuFile Dec96).appendOsb c!"[Events]\n0,0,a.png").1.shw = (OsuFile.new 14 : OsuFile Dec96).shw := C40_text _ _

/-! ## C45: the version header -/

theorem outcome_error {v : Nat} {body : Str} {n : SName} {e : LErr FileErr} (h : n.outcome D v body = .err e) :
    e.error ≠ .fileVersionDefinedWrong ∧ e.error ≠ .invalidFileVersion ∧ e.error ≠ .unexpectedLine ∧
      e.error ≠ .duplicateSections ∧ e.error ≠ .unknownSection := by
  have key : ∀ {E α : Type} (into : E → FileErr) (r : Res (LErr E) α), (processingLine into r 0 >>= fun _ => .ok () : Res (LErr FileErr) Unit) = .err e →
      ∃ e', e.error = into e' := by
    intro E α into r h
    cases r with
    | ok a => cases h
    | err e' => cases h; exact ⟨e'.error, rfl⟩
    | panic => cases h
  cases n <;> (obtain ⟨e', he⟩ := key _ _ h; rw [he]; exact ⟨nofun, nofun, nofun, nofun, nofun⟩)

theorem parseRest_error {v : Nat} {ws s : Str} {e : LErr FileErr} (h : (OsuFile.parseRest v ws s : Res _ (OsuFile D)) = .err e) :
    e.error ≠ .fileVersionDefinedWrong ∧ e.error ≠ .invalidFileVersion := by
  obtain ⟨pre, xs, rest, hl⟩ := layout_exists s
  by_cases hp : ∀ l ∈ pre, Ignorable l
  · rw [parseRest_eq hl hp, fileLoop_stops rfl] at h
    obtain ⟨p, x, q, -, -, -, hs⟩ := h
    rcases hs with ⟨-, h⟩ | ⟨-, -, h⟩ | ⟨-, n, -, ⟨e', he, h⟩ | ⟨-, h⟩ | ⟨-, -, h⟩⟩ <;> cases h
    · exact ⟨nofun, nofun⟩
    · exact ⟨nofun, nofun⟩
    · exact ⟨(outcome_error he).1, (outcome_error he).2.1⟩
  · have : ∃ k, preBad 0 pre = some k := by
      cases hb : preBad 0 pre with
      | none => exact absurd (preBad_none.1 hb) hp
      | some k => exact ⟨k, rfl⟩
    obtain ⟨k, hk⟩ := this
    obtain ⟨a, l, b, rfl, -, h1, h2⟩ := preBad_some.1 hk
    rw [parseRest_bad hl h1 h2] at h
    cases h
    exact ⟨nofun, nofun⟩

/-- The version stored in an accepted file is the one written in its header, a number from 3 to 14. -/
theorem C45_accepted {s : Str} {f : OsuFile D} (h : OsuFile.parse s = .ok f) :
    ∃ ws num r, Versioned s ws num r ∧ KnownVersion num f.version := by
  by_cases hv : ∃ ws num r, Versioned s ws num r
  · obtain ⟨ws, num, r, hv⟩ := hv
    by_cases hk : ∃ v, KnownVersion num v
    · obtain ⟨v, hk⟩ := hk
      rw [parse_versioned hv hk] at h
      obtain ⟨pre, xs, rest, hl⟩ := layout_exists r
      by_cases hp : ∀ l ∈ pre, Ignorable l
      · rw [parseRest_eq hl hp, fileLoop_ok] at h
        have : f.version = v := h.1
        exact ⟨ws, num, r, hv, this ▸ hk⟩
      · have : ∃ k, preBad 0 pre = some k := by
          cases hb : preBad 0 pre with
          | none => exact absurd (preBad_none.1 hb) hp
          | some k => exact ⟨k, rfl⟩
        obtain ⟨k, hk⟩ := this
        obtain ⟨a, l, b, rfl, -, h1, h2⟩ := preBad_some.1 hk
        rw [parseRest_bad hl h1 h2] at h
        cases h
    · rw [parse_badVersion hv hk] at h; cases h
  · rw [parse_unversioned hv] at h; cases h

/-- `FileVersionDefinedWrong` is the outcome exactly for texts that do not begin like a beatmap file; at line 0. -/
theorem C45_undefined (s : Str) (k : Nat) :
    (OsuFile.parse s : Res _ (OsuFile D)) = .err ⟨k, .fileVersionDefinedWrong⟩ ↔ k = 0 ∧ ¬∃ ws num r, Versioned s ws num r := by
  constructor
  · intro h
    by_cases hv : ∃ ws num r, Versioned s ws num r
    · obtain ⟨ws, num, r, hv⟩ := hv
      exfalso
      by_cases hk : ∃ v, KnownVersion num v
      · obtain ⟨v, hk⟩ := hk
        rw [parse_versioned hv hk] at h
        exact (parseRest_error h).1 rfl
      · rw [parse_badVersion hv hk] at h; cases h
    · rw [parse_unversioned hv] at h; cases h; exact ⟨rfl, hv⟩
  · rintro ⟨rfl, h⟩; exact parse_unversioned h

example : (OsuFile.parse c!"osu file v14" : Res _ (OsuFile Dec96)) = .err ⟨0, .fileVersionDefinedWrong⟩ ∧
    ¬∃ ws num r, Versioned c!"osu file v14" ws num r :=
  ⟨by rfl, ((C45_undefined (D := Dec96) c!"osu file v14" 0).1 (by rfl)).2⟩

/-- `InvalidFileVersion` is the outcome exactly for texts that begin like a beatmap file but whose version is not a number
from 3 to 14; at line 0. -/
theorem C45_invalid (s : Str) (k : Nat) :
    (OsuFile.parse s : Res _ (OsuFile D)) = .err ⟨k, .invalidFileVersion⟩ ↔
      k = 0 ∧ ∃ ws num r, Versioned s ws num r ∧ ¬∃ v, KnownVersion num v := by
  constructor
  · intro h
    by_cases hv : ∃ ws num r, Versioned s ws num r
    · obtain ⟨ws, num, r, hv⟩ := hv
      by_cases hk : ∃ v, KnownVersion num v
      · obtain ⟨v, hk⟩ := hk
        rw [parse_versioned hv hk] at h
        exact absurd rfl (parseRest_error h).2
      · rw [parse_badVersion hv hk] at h; cases h; exact ⟨rfl, ws, num, r, hv, hk⟩
    · rw [parse_unversioned hv] at h; cases h
  · rintro ⟨rfl, ws, num, r, hv, hk⟩; exact parse_badVersion hv hk

example : ∃ ws num r, Versioned c!"osu file format v15\n" ws num r ∧ ¬∃ v, KnownVersion num v :=
  ((C45_invalid (D := Dec96) _ 0).1 (by rfl)).2

/-! ## C53: what an accepted text consists of -/

/-- A text is accepted exactly when it is a header with a known version, blank lines and comments, and sections with
different known names and accepted contents that are not empty; the value is the one these sections stand for. What
follows the last section, beginning with a line that is not a section header, has no influence. -/
theorem C53_exact (s : Str) (f : OsuFile D) :
    OsuFile.parse s = .ok f ↔ ∃ ws num r pre xs rest, Versioned s ws num r ∧ KnownVersion num f.version ∧
      Layout r pre xs rest ∧ (∀ l ∈ pre, Ignorable l) ∧ FileReads f.version xs f := by
  constructor
  · intro h
    obtain ⟨ws, num, r, hv, hk⟩ := C45_accepted h
    rw [parse_versioned hv hk] at h
    obtain ⟨pre, xs, rest, hl⟩ := layout_exists r
    by_cases hp : ∀ l ∈ pre, Ignorable l
    · refine ⟨ws, num, r, pre, xs, rest, hv, hk, hl, hp, ?_⟩
      rw [parseRest_eq hl hp, fileLoop_ok] at h
      obtain ⟨h1, h2, h3, -, h5, h6⟩ := h
      exact ⟨rfl, h2, h3, h5, fun n hn => sectAbsent_new.2 (h6 n hn)⟩
    · have : ∃ k, preBad 0 pre = some k := by
        cases hb : preBad 0 pre with
        | none => exact absurd (preBad_none.1 hb) hp
        | some k => exact ⟨k, rfl⟩
      obtain ⟨k, hk⟩ := this
      obtain ⟨a, l, b, rfl, -, h1, h2⟩ := preBad_some.1 hk
      rw [parseRest_bad hl h1 h2] at h
      cases h
  · rintro ⟨ws, num, r, pre, xs, rest, hv, hk, hl, hp, h1, h2, h3, h5, h6⟩
    rw [parse_versioned hv hk, parseRest_eq hl hp, fileLoop_ok]
    exact ⟨rfl, h2, h3, by simp, h5, fun n hn => sectAbsent_new.1 (h6 n hn)⟩

example : ∃ ws num r pre xs rest, Versioned c!"\nosu file format v3\n// x\n\n" ws num r ∧ KnownVersion num 3 ∧
    Layout r pre xs rest ∧ (∀ l ∈ pre, Ignorable l) ∧ FileReads 3 xs (OsuFile.new 3 : OsuFile Dec96) :=
  (C53_exact _ (OsuFile.new 3)).1 (by rfl)

end

/-- The sections and the rest make up the whole text from the first bracketed line on. -/
theorem C53_text {t rest : Str} {xs : List Sect} (h : Sections t xs rest) : t = (xs.map Sect.text).flatten ++ rest :=
  sections_text h

/-- Nothing is left over when the text begins with a section header and every line that begins with `[` is one. -/
theorem C53_nothing_left {t rest : Str} {xs : List Sect} (h : Sections t xs rest) (h0 : t = [] ∨ HasHeader t)
    (hl : ∀ a b, t = a ++ '\n' :: '[' :: b → HasHeader ('[' :: b)) : rest = [] := by
  induction h with
  | nil hn => exact h0.resolve_right hn
  | @cons x s xs r hw hn hw2 hb he h' ih =>
    apply ih
    · rcases he.1 with rfl | ⟨r', rfl⟩
      · exact .inl rfl
      · right
        obtain ⟨ws, nm, q, e, h1, h2⟩ := hl (x.ws ++ '[' :: (x.name ++ ']' :: (x.ws2 ++ x.body))) r' (by simp [List.append_assoc])
        exact ⟨'\n' :: ws, nm, q, by rw [e]; rfl, .cons (by decide) h1, h2⟩
    · intro a b e
      exact hl (x.ws ++ '[' :: (x.name ++ ']' :: (x.ws2 ++ (x.body ++ a)))) b (by rw [e]; simp [List.append_assoc])

example {rest : Str} {xs : List Sect} (h : Sections c!"[A]\n[B]" xs rest) : rest = [] :=
  C53_nothing_left h (.inr ⟨[], c!"A", c!"\n[B]", rfl, by decide, by decide, by decide⟩) fun a b e => by
    have : a = c!"[A]" ∧ b = c!"B]" := by
      rcases a with _ | ⟨_, _ | ⟨_, _ | ⟨_, _ | ⟨_, a⟩⟩⟩⟩
      · simp at e
      · simp at e
      · simp at e
      · simp at e; obtain ⟨rfl, rfl, rfl, rfl⟩ := e; exact ⟨rfl, rfl⟩
      · have h1 : '\n' ∈ a ++ '\n' :: '[' :: b := by simp
        simp at e
        rw [← e.2.2.2.2] at h1
        exact absurd h1 (by decide)
    exact ⟨[], c!"B", [], by rw [this.2]; rfl, by decide, by decide, by decide⟩

/-! ## C44: repeated and unknown sections -/

section
variable {D : Type} [DecLib D] [UniLib]

/-- The sections of an accepted text have different names, all of them among the eight known ones. -/
theorem C44_accepted {s ws num r rest : Str} {pre : List Str} {xs : List Sect} {f : OsuFile D} (h : OsuFile.parse s = .ok f)
    (hv : Versioned s ws num r) (hl : Layout r pre xs rest) :
    (xs.map Sect.name).Nodup ∧ ∀ x ∈ xs, x.name ∈ [c!"General", c!"Editor", c!"Metadata", c!"Difficulty", c!"Events",
      c!"TimingPoints", c!"Colours", c!"HitObjects"] := by
  obtain ⟨ws', num', r', pre', xs', rest', hv', -, hl', -, -, -, h3, h4, -⟩ := (C53_exact s f).1 h
  obtain ⟨rfl, rfl, rfl⟩ := versioned_unique hv hv'
  obtain ⟨rfl, rfl, rfl⟩ := layout_unique hl hl'
  refine ⟨h3, fun x hx => ?_⟩
  obtain ⟨-, n, hn, -⟩ := h4 x hx
  rw [← hn]
  cases n <;> decide

/-- The outcome for a text with a good header whose sections are not all read: what happens at the first section that is
not, with the line numbers `nameLine` and `bodyLine`. -/
theorem C46_outcome {s ws num r rest : Str} {v : Nat} {pre : List Str} {xs : List Sect} (hv : Versioned s ws num r)
    (hk : KnownVersion num v) (hl : Layout r pre xs rest) (hp : ∀ l ∈ pre, Ignorable l) {o : Res (LErr FileErr) (OsuFile D)}
    (ho : o.isOk = false) :
    OsuFile.parse s = o ↔ ∃ p x q, xs = p ++ x :: q ∧ AllRead D v p ∧
      StopsAt D v (nameLine ((lines ws).length + pre.length) p x) (bodyLine ((lines ws).length + pre.length) p x)
        (p.map Sect.name) x o := by
  rw [parse_versioned hv hk, parseRest_eq hl hp, fileLoop_stops ho]
  simp

/-- A repeated section after sections that are read is rejected as such. -/
theorem C44_duplicate {s ws num r rest : Str} {v : Nat} {pre : List Str} {p q : List Sect} {x : Sect} (hv : Versioned s ws num r)
    (hk : KnownVersion num v) (hl : Layout r pre (p ++ x :: q) rest) (hp : ∀ l ∈ pre, Ignorable l) (hr : AllRead D v p)
    (hx : x.name ∈ p.map Sect.name) :
    (OsuFile.parse s : Res _ (OsuFile D)) = .err ⟨nameLine ((lines ws).length + pre.length) p x, .duplicateSections⟩ :=
  (C46_outcome hv hk hl hp rfl).2 ⟨p, x, q, rfl, hr, .inl ⟨hx, rfl⟩⟩

/-- An unknown section after sections that are read is rejected as such. -/
theorem C44_unknown {s ws num r rest : Str} {v : Nat} {pre : List Str} {p q : List Sect} {x : Sect} (hv : Versioned s ws num r)
    (hk : KnownVersion num v) (hl : Layout r pre (p ++ x :: q) rest) (hp : ∀ l ∈ pre, Ignorable l) (hr : AllRead D v p)
    (hx : ∀ n : SName, n.text ≠ x.name) :
    (OsuFile.parse s : Res _ (OsuFile D)) = .err ⟨nameLine ((lines ws).length + pre.length) p x, .unknownSection⟩ := by
  refine (C46_outcome hv hk hl hp rfl).2 ⟨p, x, q, rfl, hr, .inr (.inl ⟨?_, hx, rfl⟩)⟩
  intro hm
  obtain ⟨y, hy, e⟩ := List.mem_map.1 hm
  obtain ⟨-, n, hn, -⟩ := hr.2 y hy
  exact hx n (hn.trans e)

/-! ## C47: panics -/

/-- Reading a text panics exactly when its header is good and, after sections that are read, there is a known new section
whose own parser panics or which is accepted and empty. -/
theorem C47_exact (s : Str) : (OsuFile.parse s : Res _ (OsuFile D)) = .panic ↔ ∃ ws num r v pre p x q rest,
    Versioned s ws num r ∧ KnownVersion num v ∧ Layout r pre (p ++ x :: q) rest ∧ (∀ l ∈ pre, Ignorable l) ∧ AllRead D v p ∧
      x.name ∉ p.map Sect.name ∧ ∃ n : SName, n.text = x.name ∧
        (n.outcome D v x.body = .panic ∨ (x.body = [] ∧ n.outcome D v x.body = .ok ())) := by
  constructor
  · intro h
    by_cases hv : ∃ ws num r, Versioned s ws num r
    · obtain ⟨ws, num, r, hv⟩ := hv
      by_cases hk : ∃ v, KnownVersion num v
      · obtain ⟨v, hk⟩ := hk
        obtain ⟨pre, xs, rest, hl⟩ := layout_exists r
        by_cases hp : ∀ l ∈ pre, Ignorable l
        · obtain ⟨p, x, q, rfl, hr, hs⟩ := (C46_outcome hv hk hl hp rfl).1 h
          refine ⟨ws, num, r, v, pre, p, x, q, rest, hv, hk, hl, hp, hr, ?_⟩
          rcases hs with ⟨-, h⟩ | ⟨-, -, h⟩ | ⟨h1, n, hn, ⟨e', -, h⟩ | ⟨h, -⟩ | ⟨h, hb, -⟩⟩
          · cases h
          · cases h
          · cases h
          · exact ⟨h1, n, hn, .inl h⟩
          · exact ⟨h1, n, hn, .inr ⟨hb, h⟩⟩
        · have : ∃ k, preBad 0 pre = some k := by
            cases hb : preBad 0 pre with
            | none => exact absurd (preBad_none.1 hb) hp
            | some k => exact ⟨k, rfl⟩
          obtain ⟨k, hk'⟩ := this
          obtain ⟨a, l, b, rfl, -, h1, h2⟩ := preBad_some.1 hk'
          rw [parse_versioned hv hk, parseRest_bad hl h1 h2] at h
          cases h
      · rw [parse_badVersion hv hk] at h; cases h
    · rw [parse_unversioned hv] at h; cases h
  · rintro ⟨ws, num, r, v, pre, p, x, q, rest, hv, hk, hl, hp, hr, h1, n, hn, h⟩
    refine (C46_outcome hv hk hl hp rfl).2 ⟨p, x, q, rfl, hr, .inr (.inr ⟨h1, n, hn, ?_⟩)⟩
    rcases h with h | ⟨hb, h⟩
    · exact .inr (.inl ⟨h, rfl⟩)
    · exact .inr (.inr ⟨h, hb, rfl⟩)

example : ∃ ws num r v pre p x q rest, Versioned c!"osu file format v14\n[Events]\n10,x" ws num r ∧ KnownVersion num v ∧
    Layout r pre (p ++ x :: q) rest ∧ (∀ l ∈ pre, Ignorable l) ∧ AllRead Dec96 v p ∧ x.name ∉ p.map Sect.name ∧
      ∃ n : SName, n.text = x.name ∧ (n.outcome Dec96 v x.body = .panic ∨ (x.body = [] ∧ n.outcome Dec96 v x.body = .ok ())) :=
  (C47_exact _).1 (by rfl)

/-! ## C46: line numbers -/

/-- A line before the first section that is neither blank nor a comment is reported by its position after the header; the
line in the text is further down by the number of lines before the header. -/
theorem C46_unexpected_line {s ws num r rest : Str} {v : Nat} {a b : List Str} {l : Str} {xs : List Sect} (hv : Versioned s ws num r)
    (hk : KnownVersion num v) (hl : Layout r (a ++ l :: b) xs rest) (ha : ∀ x ∈ a, Ignorable x) (hb : ¬Ignorable l) :
    (OsuFile.parse s : Res _ (OsuFile D)) = .err ⟨a.length, .unexpectedLine⟩ ∧
      ∃ p, (lines s)[feeds ws + a.length]? = some (p ++ l) ∧ (1 ≤ a.length → p = []) := by
  refine ⟨by rw [parse_versioned hv hk, parseRest_bad hl ha hb], ?_⟩
  obtain ⟨⟨bom, hbom, rfl⟩, -, -, hn, -⟩ := hv
  obtain ⟨ls, h1, -⟩ := hl
  have h2 : (lines r)[a.length]? = some l := by rw [h1]; simp
  obtain ⟨p, h3, h4⟩ := lines_app_get (a := ws ++ bom ++ c!"osu file format v" ++ num) h2
  have hf : feeds (ws ++ bom ++ c!"osu file format v" ++ num) = feeds ws := by
    simp only [feeds_append]
    have h5 : feeds num = 0 := feeds_noLF hn
    have h6 : feeds bom = 0 := by rcases hbom with rfl | rfl <;> rfl
    have h7 : feeds c!"osu file format v" = 0 := rfl
    omega
  rw [hf] at h3
  exact ⟨p, h3, fun h => h4 (.inl h)⟩

end

theorem versioned_feeds {s ws num r : Str} (hv : Versioned s ws num r) : ∃ a, s = a ++ r ∧ feeds a = feeds ws := by
  obtain ⟨⟨bom, hbom, rfl⟩, -, -, hn, -⟩ := hv
  refine ⟨_, rfl, ?_⟩
  simp only [feeds_append]
  have h5 : feeds num = 0 := feeds_noLF hn
  have h6 : feeds bom = 0 := by rcases hbom with rfl | rfl <;> rfl
  have h7 : feeds c!"osu file format v" = 0 := rfl
  omega

/-- The line of a section's content in the text: line `i` of the content is line `k + i` of the text, where `k` is the
number of line feeds before the content. Only the first one may have something in front, when the content does not begin a
line. -/
theorem C46_content_position {s ws num r rest : Str} {pre : List Str} {p q : List Sect} {x : Sect} (hv : Versioned s ws num r)
    (hl : Layout r pre (p ++ x :: q) rest) (hcr : ∀ l ∈ lines r, l.getLast? ≠ some '\r') {i : Nat} {l : Str}
    (hi : (lines x.body)[i]? = some l) :
    ∃ d, (lines s)[feeds ws + pre.length + feeds (upToBody p x) + i]? = some (d ++ l) ∧
      (1 ≤ i ∨ x.ws2.getLast? = some '\n' → d = []) := by
  obtain ⟨a, hs, hf⟩ := versioned_feeds hv
  obtain ⟨t, h1, h2, h3⟩ := layout_lines hs hl hcr
  obtain ⟨l', h4, h5⟩ := linesOf_get hi
  obtain ⟨z, e, hz⟩ := sections_rest h1
  obtain ⟨d, h6, h7⟩ := splitNL_app_get (a := upToBody p x) (splitNL_pre_get hz h4)
  rw [← e] at h6
  have hl' : l' = l := by
    have h8 := h2 _ (List.mem_of_getElem? h6)
    rcases h5 with h5 | h5
    · exact h5.symm
    · rw [h5, stripCR_id]
      intro hc
      apply h8
      rw [List.getLast?_append, hc]
      rfl
  subst hl'
  have hne : t ≠ [] := by
    rw [e]
    intro h
    have := congrArg List.length h
    simp [upToBody] at this
  obtain ⟨d', h8, h9⟩ := h3 _ _ hne h6
  rw [hf] at h8
  refine ⟨d' ++ d, ?_, ?_⟩
  · rw [← Nat.add_assoc] at h8
    rw [h8, List.append_assoc]
  · intro h
    have hd : d = [] := by
      apply h7
      rcases h with h | h
      · exact .inl h
      · right; right
        unfold upToBody
        have : ∀ (A : Str) (c : Char), c ∈ x.ws2.getLast? → (A ++ (x.ws ++ '[' :: (x.name ++ ']' :: x.ws2))).getLast? = some c := by
          intro A c hc
          have : A ++ (x.ws ++ '[' :: (x.name ++ ']' :: x.ws2)) = (A ++ x.ws ++ '[' :: (x.name ++ [']'])) ++ x.ws2 := by simp
          rw [this, List.getLast?_append, hc]
          rfl
        exact this _ _ h
    rw [hd, List.append_nil]
    apply h9
    rcases h with h | h
    · omega
    · have : feeds (upToBody p x) ≥ 1 := by
        unfold feeds
        apply List.count_pos_iff.2
        have := List.mem_of_getLast? h
        simp [upToBody, this]
      omega

/-- The line of a section header in the text. -/
theorem C46_header_position {s ws num r rest : Str} {pre : List Str} {p q : List Sect} {x : Sect} (hv : Versioned s ws num r)
    (hl : Layout r pre (p ++ x :: q) rest) (hcr : ∀ l ∈ lines r, l.getLast? ≠ some '\r') :
    ∃ d d', (lines s)[feeds ws + pre.length + feeds (upToName p x)]? = some (d ++ '[' :: (x.name ++ ']' :: d')) := by
  obtain ⟨a, hs, hf⟩ := versioned_feeds hv
  obtain ⟨t, h1, h2, h3⟩ := layout_lines hs hl hcr
  obtain ⟨z, e, hz⟩ := sections_rest h1
  have hn := sections_name h1 x (by simp)
  -- the line of the header within `[name]...`
  have hh : ∃ d', (splitNL ('[' :: (x.name ++ ']' :: (x.ws2 ++ (x.body ++ z)))))[0]? = some ('[' :: (x.name ++ ']' :: d')) := by
    obtain ⟨A, u, w, B, a1, a2, a3, a4, -⟩ := splitNL_app (a := '[' :: (x.name ++ [']'])) (b := x.ws2 ++ (x.body ++ z))
    have hnl' : '\n' ∉ '[' :: (x.name ++ [']']) := by
      intro hc
      simp only [List.mem_cons, List.mem_append, List.not_mem_nil, or_false] at hc
      rcases hc with hc | hc | hc
      · exact absurd hc (by decide)
      · exact hn hc
      · exact absurd hc (by decide)
    have hnl : NoLF ('[' :: (x.name ++ [']'])) := by
      intro c hc
      have : c ≠ '\n' := by rintro rfl; exact hnl' hc
      simpa using this
    have hA : A = [] := by
      apply List.length_eq_zero_iff.1
      rw [a4]
      exact feeds_noLF hnl'
    subst hA
    rw [splitNL_noLF hnl] at a1
    simp only [List.nil_append, List.cons.injEq, and_true] at a1
    refine ⟨w, ?_⟩
    have : '[' :: (x.name ++ ']' :: (x.ws2 ++ (x.body ++ z))) = '[' :: (x.name ++ [']']) ++ (x.ws2 ++ (x.body ++ z)) := by simp
    rw [this, a3, ← a1]
    simp
  obtain ⟨d', hh⟩ := hh
  obtain ⟨d, h6, -⟩ := splitNL_app_get (a := upToName p x) hh
  have e2 : t = upToName p x ++ '[' :: (x.name ++ ']' :: (x.ws2 ++ (x.body ++ z))) := by
    rw [e, upToName_le]; simp
  rw [← e2] at h6
  have hne : t ≠ [] := by
    rw [e2]
    intro h
    have := congrArg List.length h
    simp at this
  obtain ⟨d2, h8, -⟩ := h3 _ _ hne h6
  rw [hf] at h8
  exact ⟨d2 ++ d, d', by rw [Nat.add_zero] at h8; rw [h8, List.append_assoc]⟩

/-- The line number counted for the content of a section, against its position in the text: too small by the number of
earlier sections that end with an empty line, too large by the number of blanks in front of the version header, of section
headers and of contents that are on the same line. -/
theorem C46_content_line {ws r rest : Str} {pre : List Str} {p q : List Sect} {x : Sect} (hl : Layout r pre (p ++ x :: q) rest) :
    bodyLine ((lines ws).length + pre.length) p x + (p.map Sect.gap).sum =
      feeds ws + pre.length + feeds (upToBody p x) + indent ws + ((p ++ [x]).map fun y => indent y.ws + indent y.ws2).sum := by
  obtain ⟨ls, -, -, -, h⟩ := hl
  have := bodyLine_eq h ((lines ws).length + pre.length)
  rw [lines_len ws] at this ⊢
  omega

/-- The same for the line number counted for a section header. -/
theorem C46_header_line {ws r rest : Str} {pre : List Str} {p q : List Sect} {x : Sect} (hl : Layout r pre (p ++ x :: q) rest) :
    nameLine ((lines ws).length + pre.length) p x + (p.map Sect.gap).sum =
      feeds ws + pre.length + feeds (upToName p x) + indent ws + (p.map fun y => indent y.ws + indent y.ws2).sum + indent x.ws := by
  obtain ⟨ls, -, -, -, h⟩ := hl
  have := nameLine_eq h ((lines ws).length + pre.length)
  rw [lines_len ws] at this ⊢
  omega

theorem sum_zero {α : Type} {l : List α} {f : α → Nat} (h : ∀ a ∈ l, f a = 0) : (l.map f).sum = 0 := by
  induction l with
  | nil => rfl
  | cons a l ih => simp [h a (by simp), ih fun b hb => h b (by simp [hb])]

section
variable {D : Type} [DecLib D] [UniLib]

/-- An error in the content of a section names the line of the text it is about, when no earlier section ends with an empty
line and no header or content is indented or shares a line with what is before it. -/
theorem C46_right_line {s ws num r rest : Str} {v : Nat} {pre : List Str} {p q : List Sect} {x : Sect} {n : SName}
    (hv : Versioned s ws num r) (hk : KnownVersion num v) (hl : Layout r pre (p ++ x :: q) rest) (hp : ∀ l ∈ pre, Ignorable l)
    (hcr : ∀ l ∈ lines r, l.getLast? ≠ some '\r') (hr : AllRead D v p) (hx : x.name ∉ p.map Sect.name) (hn : n.text = x.name)
    {e : LErr FileErr} (he : n.outcome D v x.body = .err e) {l : Str} (hi : (lines x.body)[e.line]? = some l)
    (hw : indent ws = 0) (hg : ∀ y ∈ p, y.gap = 0) (hin : ∀ y ∈ p ++ [x], indent y.ws = 0 ∧ y.ws2.getLast? = some '\n') :
    ∃ k, (OsuFile.parse s : Res _ (OsuFile D)) = .err ⟨k, e.error⟩ ∧ (lines s)[k]? = some l := by
  refine ⟨_, (C46_outcome hv hk hl hp rfl).2 ⟨p, x, q, rfl, hr, .inr (.inr ⟨hx, n, hn, .inl ⟨e, he, rfl⟩⟩)⟩, ?_⟩
  obtain ⟨d, h1, h2⟩ := C46_content_position hv hl hcr hi
  have h3 := C46_content_line (ws := ws) hl
  have hin' : ∀ y ∈ p ++ [x], indent y.ws + indent y.ws2 = 0 := by
    intro y hy
    obtain ⟨a, b⟩ := hin y hy
    rw [a]
    unfold indent
    rw [if_pos (.inr b)]
  rw [sum_zero hg, sum_zero hin', hw] at h3
  rw [h2 (.inr (hin x (by simp)).2), List.nil_append] at h1
  rw [← h1]
  congr 1
  omega

end

/-! ### Concrete files -/

/-- The error, for comparing outcomes. -/
def Res.toErr {ε α : Type} : Res ε α → Option ε
  | .err e => some e
  | _ => none

theorem Res.of_toErr {ε α : Type} {r : Res ε α} {e : ε} (h : r.toErr = some e) : r = .err e := by
  cases r <;> cases h
  rfl

/-- Whether the result is a panic. -/
def Res.isPanic {ε α : Type} : Res ε α → Bool
  | .panic => true
  | _ => false

theorem Res.of_isPanic {ε α : Type} {r : Res ε α} (h : r.isPanic = true) : r = .panic := by
  cases r <;> cases h
  rfl

theorem Res.of_isOk {ε α : Type} {r : Res ε α} (h : r.isOk = true) : ∃ a, r = .ok a := by
  cases r with
  | ok a => exact ⟨a, rfl⟩
  | err e => cases h
  | panic => cases h

section
attribute [local instance] asciiUni

/-- A file with two sections and a comment. -/
def exFile : Str := c!"\n osu file format v14\n// hi\n\n[General]\nMode: 1\n[Colours]\nCombo1 : 1,2,3\n"

theorem exFile_versioned : Versioned exFile c!"\n " c!"14" c!"\n// hi\n\n[General]\nMode: 1\n[Colours]\nCombo1 : 1,2,3\n" :=
  ⟨⟨[], .inl rfl, rfl⟩, by decide, by decide, by decide, .inr ⟨_, .inr rfl⟩⟩

theorem known_14 : KnownVersion c!"14" 14 := ⟨⟨c!"14", by decide, by decide, .inl ⟨rfl, by decide⟩⟩, by decide, by decide⟩

theorem exFile_layout : Layout c!"\n// hi\n\n[General]\nMode: 1\n[Colours]\nCombo1 : 1,2,3\n" [c!"", c!"// hi", c!""]
    [⟨c!"", c!"General", c!"\n", c!"Mode: 1"⟩, ⟨c!"\n", c!"Colours", c!"\n", c!"Combo1 : 1,2,3"⟩] c!"" :=
  layout_iff.2 ⟨by decide, sections_iff.1 (by decide)⟩

theorem ignorable_ex : ∀ l ∈ [c!"", c!"// hi", c!""], Ignorable l := by
  intro l hl
  simp only [List.mem_cons, List.not_mem_nil, or_false] at hl
  rcases hl with rfl | rfl | rfl
  · exact .inl rfl
  · exact .inr ⟨c!" hi", rfl⟩
  · exact .inl rfl

example : ∃ f : OsuFile Dec96, OsuFile.parse exFile = .ok f ∧ f.version = 14 := by
  obtain ⟨f, hf⟩ := Res.of_isOk (r := (OsuFile.parse exFile : Res _ (OsuFile Dec96))) (by decide)
  obtain ⟨ws, num, r, hv, hk⟩ := C45_accepted hf
  obtain ⟨-, rfl, -⟩ := versioned_unique hv exFile_versioned
  refine ⟨f, hf, ?_⟩
  obtain ⟨u, hu, h, -⟩ := knownVersion_iff.1 hk
  rw [h]
  have : parseU8 c!"14" = .ok 14 := by decide
  rw [this] at hu
  cases hu
  rfl

/-- The hypotheses of the theorems on the outcome: a file whose first section is read, and whose second one is repeated. -/
example : ∃ e, (OsuFile.parse c!"osu file format v14\n[General]\nMode: 1\n[General]\nMode: 2" : Res _ (OsuFile Dec96)) = .err e ∧
    e = ⟨3, .duplicateSections⟩ := by
  refine ⟨_, C44_duplicate (ws := []) (num := c!"14") (pre := [[]]) (p := [⟨[], c!"General", ['\n'], c!"Mode: 1"⟩])
    (x := ⟨['\n'], c!"General", ['\n'], c!"Mode: 2"⟩) (q := []) (rest := [])
    (r := c!"\n[General]\nMode: 1\n[General]\nMode: 2") ⟨⟨[], .inl rfl, rfl⟩, by decide, by decide, by decide, .inr ⟨_, .inr rfl⟩⟩
    known_14 (layout_iff.2 ⟨by decide, sections_iff.1 (by decide)⟩) ?_ ?_ (by decide), by decide⟩
  · intro l hl
    simp only [List.mem_singleton] at hl
    subst hl
    exact .inl rfl
  · refine ⟨by decide, ?_⟩
    intro y hy
    simp only [List.mem_singleton] at hy
    subst hy
    exact ⟨by decide, .general, rfl, by decide⟩

example : (OsuFile.parse c!"osu file format v14\n[General]\nMode: 1\n[Generals]\nMode: 2" : Res _ (OsuFile Dec96)).toErr =
    some ⟨3, .unknownSection⟩ := by decide

/-- The right line: an error in the second section. -/
example : ∃ k e, (OsuFile.parse c!"\nosu file format v14\n\n[General]\nMode: 1\n[Colours]\nCombo1 : 1,2,3\n\nCombo2" :
    Res _ (OsuFile Dec96)) = .err ⟨k, e⟩ ∧ k = 8 := by
  obtain ⟨k, h1, h2⟩ := C46_right_line (D := Dec96) (s := c!"\nosu file format v14\n\n[General]\nMode: 1\n[Colours]\nCombo1 : 1,2,3\n\nCombo2")
    (ws := ['\n']) (num := c!"14") (v := 14) (pre := [[], []]) (p := [⟨[], c!"General", ['\n'], c!"Mode: 1"⟩])
    (x := ⟨['\n'], c!"Colours", ['\n'], c!"Combo1 : 1,2,3\n\nCombo2"⟩) (q := []) (rest := []) (n := .colours)
    (e := ⟨2, .colours .invalidColonSeparator⟩) (l := c!"Combo2")
    (r := c!"\n\n[General]\nMode: 1\n[Colours]\nCombo1 : 1,2,3\n\nCombo2")
    ⟨⟨[], .inl rfl, rfl⟩, by decide, by decide, by decide, .inr ⟨_, .inr rfl⟩⟩
    known_14 (layout_iff.2 ⟨by decide, sections_iff.1 (by decide)⟩)
    (by intro l hl; simp only [List.mem_cons, List.not_mem_nil, or_false, or_self] at hl; subst hl; exact .inl rfl)
    (by decide) ⟨by decide, by intro y hy; simp only [List.mem_singleton] at hy; subst hy; exact ⟨by decide, .general, rfl, by decide⟩⟩
    (by decide) (by decide) (by decide) (by decide) (by decide) (by decide) (by decide)
  refine ⟨k, _, h1, ?_⟩
  have : (OsuFile.parse c!"\nosu file format v14\n\n[General]\nMode: 1\n[Colours]\nCombo1 : 1,2,3\n\nCombo2" :
    Res _ (OsuFile Dec96)).toErr = some ⟨8, .colours .invalidColonSeparator⟩ := by decide
  rw [h1] at this
  cases this
  rfl

/-- An earlier section that ends with an empty line: the number is one too small. -/
theorem C46_false_gap : ∃ s k e, (OsuFile.parse s : Res _ (OsuFile Dec96)) = .err ⟨k, .colours e⟩ ∧
    (lines s)[k]? = some c!"[Colours]" ∧ (lines s)[k + 1]? = some c!"Combo" :=
  ⟨c!"osu file format v14\n\n[General]\nMode: 1\n\n[Colours]\nCombo", 5, .invalidComboCount, Res.of_toErr (by decide), by decide, by decide⟩

/-- Indented content: the number is one too large. -/
theorem C46_false_indent : ∃ s k e, (OsuFile.parse s : Res _ (OsuFile Dec96)) = .err ⟨k, .colours e⟩ ∧
    (lines s)[k]? = none ∧ (lines s)[k - 1]? = some c!" Combo" :=
  ⟨c!"osu file format v14\n\n[Colours]\n Combo", 4, .invalidComboCount, Res.of_toErr (by decide), by decide, by decide⟩

/-- Lines before the header are not counted for an unexpected line. -/
theorem C46_false_unexpected : ∃ s k, (OsuFile.parse s : Res _ (OsuFile Dec96)) = .err ⟨k, .unexpectedLine⟩ ∧
    (lines s)[k]? = some c!"osu file format v14" ∧ (lines s)[k + 1]? = some c!"x" :=
  ⟨c!"\nosu file format v14\nx", 1, Res.of_toErr (by decide), by decide, by decide⟩

/-- An empty section at the end of a file. -/
theorem C47_false_empty : (OsuFile.parse c!"osu file format v14\n\n[General]\n" : Res _ (OsuFile Dec96)) = .panic :=
  Res.of_isPanic (by decide)

/-- A section whose parser panics. -/
theorem C47_false_events : (OsuFile.parse c!"osu file format v14\n\n[Events]\nVideox" : Res _ (OsuFile Dec96)) = .panic :=
  Res.of_isPanic (by decide)

/-- A section header without its closing bracket: it and everything after it is ignored. -/
theorem C53_false_header : ∃ f : OsuFile Dec96,
    OsuFile.parse c!"osu file format v14\n\n[General]\nMode: 1\n[Metadata\nTitle: a\n[Colours]\nx" = .ok f ∧
      f.metadata = none ∧ f.colours = none := by
  obtain ⟨f, hf⟩ := Res.of_isOk
    (r := (OsuFile.parse c!"osu file format v14\n\n[General]\nMode: 1\n[Metadata\nTitle: a\n[Colours]\nx" : Res _ (OsuFile Dec96))) (by decide)
  refine ⟨f, hf, ?_⟩
  obtain ⟨ws, num, r, pre, xs, rest, hv, hk, hl, hp, -, -, -, -, h6⟩ := (C53_exact _ f).1 hf
  obtain ⟨rfl, rfl, rfl⟩ := versioned_unique hv (ws' := []) (num' := c!"14")
    (r' := c!"\n\n[General]\nMode: 1\n[Metadata\nTitle: a\n[Colours]\nx")
    ⟨⟨[], .inl rfl, rfl⟩, by decide, by decide, by decide, .inr ⟨_, .inr rfl⟩⟩
  obtain ⟨-, rfl, -⟩ := layout_unique hl (pre' := [[], []]) (xs' := [⟨[], c!"General", ['\n'], c!"Mode: 1"⟩])
    (rest' := c!"\n[Metadata\nTitle: a\n[Colours]\nx") (layout_iff.2 ⟨by decide, sections_iff.1 (by decide)⟩)
  exact ⟨h6 .metadata (by decide), h6 .colours (by decide)⟩

/-- A comment that ends with a bracket: everything after it is ignored. -/
theorem C53_false_comment : OsuFile.parse c!"osu file format v14\n// [see below]\n[General]\nMode: x" =
    .ok (OsuFile.new 14 : OsuFile Dec96) := by
  rw [parse_versioned (s := c!"osu file format v14\n// [see below]\n[General]\nMode: x") (ws := []) (num := c!"14") (r := c!"\n// [see below]\n[General]\nMode: x")
    ⟨⟨[], .inl rfl, rfl⟩, by decide, by decide, by decide, .inr ⟨_, .inr rfl⟩⟩ known_14,
    parseRest_eq (pre := [[]]) (xs := []) (rest := c!"// [see below]\n[General]\nMode: x")
      (layout_iff.2 ⟨by decide, sections_iff.1 (by decide)⟩)
      (by intro l hl; simp only [List.mem_singleton] at hl; subst hl; exact .inl rfl)]
  rfl

end

section
attribute [local instance] asciiUni

/-! The hypotheses of the theorems above, for `exFile`. -/

private def exGeneral : Sect := ⟨c!"", c!"General", c!"\n", c!"Mode: 1"⟩
private def exColours : Sect := ⟨c!"\n", c!"Colours", c!"\n", c!"Combo1 : 1,2,3"⟩

private theorem exSections : Sections c!"[General]\nMode: 1\n[Colours]\nCombo1 : 1,2,3" [exGeneral, exColours] [] :=
  sections_iff.1 (by decide)

example : c!"[General]\nMode: 1\n[Colours]\nCombo1 : 1,2,3" = ([exGeneral, exColours].map Sect.text).flatten ++ [] :=
  C53_text exSections

example (f : OsuFile Dec96) (h : OsuFile.parse exFile = .ok f) : ([exGeneral, exColours].map Sect.name).Nodup :=
  (C44_accepted h exFile_versioned exFile_layout).1

/-- A refused file: which section it stops at. -/
example (e : LErr FileErr) (h : (OsuFile.parse c!"osu file format v14\n[General]\nMode: x" : Res _ (OsuFile Dec96)) = .err e) :
    ∃ p x q, [(⟨[], c!"General", ['\n'], c!"Mode: x"⟩ : Sect)] = p ++ x :: q ∧ AllRead Dec96 14 p := by
  obtain ⟨p, x, q, h1, h2, -⟩ := (C46_outcome (D := Dec96) (ws := []) (num := c!"14") (r := c!"\n[General]\nMode: x") (pre := [[]])
    (xs := [⟨[], c!"General", ['\n'], c!"Mode: x"⟩]) (rest := []) ⟨⟨[], .inl rfl, rfl⟩, by decide, by decide, by decide, .inr ⟨_, .inr rfl⟩⟩ known_14
    (layout_iff.2 ⟨by decide, sections_iff.1 (by decide)⟩)
    (by intro l hl; simp only [List.mem_singleton] at hl; subst hl; exact .inl rfl) (o := .err e) rfl).1 h
  exact ⟨p, x, q, h1, h2⟩

example : (OsuFile.parse c!"osu file format v14\n[Generals]\nMode: 2" : Res _ (OsuFile Dec96)) = .err ⟨1, .unknownSection⟩ :=
  C44_unknown (ws := []) (num := c!"14") (r := c!"\n[Generals]\nMode: 2") (pre := [[]]) (p := [])
    (x := ⟨[], c!"Generals", ['\n'], c!"Mode: 2"⟩) (q := []) (rest := [])
    ⟨⟨[], .inl rfl, rfl⟩, by decide, by decide, by decide, .inr ⟨_, .inr rfl⟩⟩ known_14
    (layout_iff.2 ⟨by decide, sections_iff.1 (by decide)⟩)
    (by intro l hl; simp only [List.mem_singleton] at hl; subst hl; exact .inl rfl)
    ⟨by decide, fun _ h => absurd h List.not_mem_nil⟩ (by intro n; cases n <;> decide)

/-- Two lines before the header, a line that does not belong there after a comment. -/
example : (OsuFile.parse c!"\n\nosu file format v14\n//\nx" : Res _ (OsuFile Dec96)) = .err ⟨2, .unexpectedLine⟩ ∧
    ∃ p, (lines c!"\n\nosu file format v14\n//\nx")[4]? = some (p ++ c!"x") ∧ (1 ≤ 2 → p = []) :=
  C46_unexpected_line (ws := c!"\n\n") (num := c!"14") (r := c!"\n//\nx") (a := [[], c!"//"]) (l := c!"x") (b := []) (xs := []) (rest := [])
    ⟨⟨[], .inl rfl, rfl⟩, by decide, by decide, by decide, .inr ⟨_, .inr rfl⟩⟩ known_14
    (layout_iff.2 ⟨by decide, sections_iff.1 (by decide)⟩)
    (by
      intro l hl
      have : l = [] ∨ l = c!"//" := by simpa using hl
      rcases this with rfl | rfl
      · exact .inl rfl
      · exact .inr ⟨[], rfl⟩)
    (by
      rintro (h | ⟨_, h⟩)
      · revert h; decide
      · rw [show trim c!"x" = c!"x" by decide] at h; cases h)

/-- The colour of `exFile` is in line 7, the header of its section in line 6. -/
example : ∃ d, (lines exFile)[7]? = some (d ++ c!"Combo1 : 1,2,3") ∧ (1 ≤ 0 ∨ exColours.ws2.getLast? = some '\n' → d = []) :=
  C46_content_position (p := [exGeneral]) (q := []) exFile_versioned exFile_layout (by decide) (i := 0) (by decide)
example : ∃ d d', (lines exFile)[6]? = some (d ++ '[' :: (c!"Colours" ++ ']' :: d')) :=
  C46_header_position (p := [exGeneral]) (x := exColours) (q := []) exFile_versioned exFile_layout (by decide)
example : bodyLine (2 + 3) [exGeneral] exColours + 0 = 7 + 1 := C46_content_line (p := [exGeneral]) (x := exColours) (q := []) (ws := c!"\n ") exFile_layout
example : nameLine (2 + 3) [exGeneral] exColours + 0 = 6 + 1 := C46_header_line (p := [exGeneral]) (x := exColours) (q := []) (ws := c!"\n ") exFile_layout

example (f : OsuFile Dec96) (h : (f.appendOsb c!"[Events]\n0").2 = .ok ()) :
    ∃ o, Osb.parse f.version c!"[Events]\n0" = .ok o ∧ (f.appendOsb c!"[Events]\n0").1 = { f with osb := o } :=
  (C40_all_or_nothing f _).1 h

end

end Osu
