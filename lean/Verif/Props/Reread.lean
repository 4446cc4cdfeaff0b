/-
C99: which texts are still accepted when the version in the header is changed.
-/
import Verif.Proof.Reread

namespace Osu
open SB Ev

section
variable {D : Type} [DecLib D] [UniLib]

/-- C99: a text of a section that is accepted in version `v` is accepted in version `w` if the table says so, unless a time overflows, which
happens only when a version before 5 takes the place of a later one. -/
theorem C99_section (n : SName) {v w : Nat} (hv : 3 ≤ v ∧ v ≤ 14) (hw : 3 ≤ w ∧ w ≤ 14) (h : keeps v w n) (body : Str)
    (hr : n.outcome D v body = .ok ()) : n.outcome D w body = .ok () ∨ (n.outcome D w body = .panic ∧ w ≤ 4 ∧ 5 ≤ v) :=
  outcome_keeps hv hw h hr

/-- C99: the same for a file, of which only the version in the header is changed. -/
theorem C99_file {s s' ws num num' r rest : Str} {v w : Nat} {pre : List Str} {xs : List Sect} {f : OsuFile D} (hs : Versioned s ws num r)
    (hv : KnownVersion num v) (hs' : Versioned s' ws num' r) (hw : KnownVersion num' w) (hl : Layout r pre xs rest)
    (hk : ∀ x ∈ xs, ∀ n : SName, n.text = x.name → keeps v w n) (h : OsuFile.parse s = .ok f) :
    (∃ g : OsuFile D, OsuFile.parse s' = .ok g) ∨ ((OsuFile.parse s' : Res _ (OsuFile D)) = .panic ∧ w ≤ 4 ∧ 5 ≤ v) := by
  obtain ⟨ws0, num0, r0, pre0, xs0, rest0, a1, a2, a3, a4, -, -, b1, b2, -⟩ := (C53_exact s f).1 h
  obtain ⟨rfl, rfl, rfl⟩ := versioned_unique hs a1
  obtain ⟨rfl, rfl, rfl⟩ := layout_unique hl a3
  have hfv : f.version = v := by
    obtain ⟨u, h1, h2, -⟩ := knownVersion_iff.1 a2
    obtain ⟨u', h1', h2', -⟩ := knownVersion_iff.1 hv
    rw [h1] at h1'; cases h1'; exact h2.trans h2'.symm
  rw [hfv] at b2
  cases ho : (OsuFile.parse s' : Res (LErr FileErr) (OsuFile D)).isOk with
  | true =>
    cases hp : (OsuFile.parse s' : Res (LErr FileErr) (OsuFile D)) with
    | ok g => exact .inl ⟨g, rfl⟩
    | err e => rw [hp] at ho; cases ho
    | panic => rw [hp] at ho; cases ho
  | false =>
    obtain ⟨p, x, q, rfl, -, hst⟩ := (C46_outcome hs' hw hl a4 ho).1 rfl
    have hx : x ∈ p ++ x :: q := by simp
    obtain ⟨c1, m, c2, c3⟩ := b2 x hx
    have c4 : m.outcome D v x.body = .ok () := sectReads_outcome.1 ⟨f, c3⟩
    have c5 := C99_section m hv.2 hw.2 (hk x hx m c2) x.body c4
    have hnd : x.name ∉ p.map Sect.name := by
      rw [List.map_append, List.map_cons] at b1
      intro hm
      exact (List.nodup_append.1 b1).2.2 _ hm _ (.head _) rfl
    rcases hst with ⟨h1, -⟩ | ⟨-, h1, -⟩ | ⟨-, n, h1, h2⟩
    · exact absurd h1 hnd
    · exact absurd c2 (h1 m)
    · have := SName.text_inj (h1.trans c2.symm)
      subst this
      rcases h2 with ⟨e, h2, -⟩ | ⟨h2, h3⟩ | ⟨-, h2, -⟩
      · rw [h2] at c5; rcases c5 with c5 | ⟨c5, -⟩ <;> cases c5
      · rw [h2] at c5
        rcases c5 with c5 | ⟨-, c5⟩
        · cases c5
        · exact .inr ⟨h3, c5⟩
      · exact absurd h2 c1

/-- C99: with an older version in its header, other than 4, a file is still accepted, unless a time overflows in version 3. -/
theorem C99_older {s s' ws num num' r : Str} {v w : Nat} {f : OsuFile D} (hs : Versioned s ws num r) (hv : KnownVersion num v)
    (hs' : Versioned s' ws num' r) (hw : KnownVersion num' w) (hvw : w ≤ v) (h4 : w ≠ 4) (h : OsuFile.parse s = .ok f) :
    (∃ g : OsuFile D, OsuFile.parse s' = .ok g) ∨ ((OsuFile.parse s' : Res _ (OsuFile D)) = .panic ∧ w = 3 ∧ 5 ≤ v) := by
  obtain ⟨pre, xs, rest, hl⟩ := layout_exists r
  have := hv.2.1
  have := hw.2.1
  refine (C99_file hs hv hs' hw hl (fun x hx n hn => ?_) h).imp_right fun ⟨h1, h2, h3⟩ => ⟨h1, by omega, h3⟩
  cases n <;> simp only [keeps] <;> omega

/-- C99: a file of version 6 or later is still accepted with any version from 6 to 13 in its header. -/
theorem C99_recent {s s' ws num num' r : Str} {v w : Nat} {f : OsuFile D} (hs : Versioned s ws num r) (hv : KnownVersion num v)
    (hs' : Versioned s' ws num' r) (hw : KnownVersion num' w) (hvr : 6 ≤ v) (hwr : 6 ≤ w ∧ w ≤ 13) (h : OsuFile.parse s = .ok f) :
    ∃ g : OsuFile D, OsuFile.parse s' = .ok g := by
  obtain ⟨pre, xs, rest, hl⟩ := layout_exists r
  refine (C99_file hs hv hs' hw hl (fun x hx n hn => ?_) h).resolve_right fun ⟨_, h2, _⟩ => by omega
  cases n <;> simp only [keeps] <;> omega

end
section
attribute [local instance] asciiUni

/-- Whether the text of a section is accepted in a version, and nothing if reading it panics. -/
def verdict (n : SName) (body : Str) (v : Nat) : Option Bool :=
  match n.outcome Dec96 v body with
  | .ok _ => some true
  | .err _ => some false
  | .panic => none

theorem verdict_ok {n : SName} {body : Str} {v : Nat} (h : verdict n body v = some true) : n.outcome Dec96 v body = .ok () := by
  unfold verdict at h
  split at h
  · assumption
  · cases h
  · cases h

theorem verdict_err {n : SName} {body : Str} {v : Nat} (h : verdict n body v = some false) : ∃ e, n.outcome Dec96 v body = .err e := by
  unfold verdict at h
  split at h
  · cases h
  · exact ⟨_, by assumption⟩
  · cases h

/-- Texts that are accepted in some versions only. -/
theorem verdicts : ∀ v ∈ List.range' 3 12,
    verdict .general c!"SampleSet: x" v = some (decide (v < 4)) ∧ verdict .general c!"Countdown: x" v = some (decide (v < 5)) ∧
    verdict .general c!"OverlayPosition: x" v = some (decide (v < 14)) ∧ verdict .colours c!"x" v = some (decide (v < 5)) ∧
    verdict .timingPoints c!"1,2" v = some (decide (v = 3)) ∧ verdict .timingPoints c!"1,2,4,1,0" v = some (decide (v ≤ 4)) ∧
    verdict .timingPoints c!"1,2,4,1,0,50,1" v = some (decide (v = 3 ∨ v = 5)) ∧
    verdict .timingPoints c!"1,2,4,1,0,50,1,0" v = some (decide (v ≠ 4)) := by decide

/-- C99: for every other pair of versions there is a text that is accepted in the first and refused in the second. -/
theorem C99_exact (n : SName) {v w : Nat} (hv : 3 ≤ v ∧ v ≤ 14) (hw : 3 ≤ w ∧ w ≤ 14) :
    keeps v w n ↔ ∀ body, n.outcome Dec96 v body = .ok () → ∀ e, n.outcome Dec96 w body ≠ .err e := by
  constructor
  · intro h body hr e he
    rcases C99_section n hv hw h body hr with hc | ⟨hc, -⟩ <;> (rw [he] at hc; cases hc)
  · intro h
    have mv := verdicts v (by simp only [List.mem_range'_1]; omega)
    have mw := verdicts w (by simp only [List.mem_range'_1]; omega)
    obtain ⟨v1, v2, v3, v4, v5, v6, v7, v8⟩ := mv
    obtain ⟨w1, w2, w3, w4, w5, w6, w7, w8⟩ := mw
    have key : ∀ {body : Str} {a b : Prop} [Decidable a] [Decidable b], verdict n body v = some (decide a) → verdict n body w = some (decide b) →
        a → b := by
      intro body a b _ _ h1 h2 ha
      refine Classical.byContradiction fun hb => ?_
      obtain ⟨e, he⟩ := verdict_err (h2.trans (by simp [hb]))
      exact h _ (verdict_ok (h1.trans (by simp [ha]))) e he
    cases n with
    | general =>
      have k1 := key v1 w1
      have k2 := key v2 w2
      have k3 := key v3 w3
      simp only [keeps]; omega
    | colours =>
      have k1 := key v4 w4
      simp only [keeps]; omega
    | timingPoints =>
      have k1 := key v5 w5
      have k2 := key v6 w6
      have k3 := key v7 w7
      have k4 := key v8 w8
      simp only [keeps]; omega
    | _ => trivial

example : keeps 14 5 .timingPoints ∧ ¬keeps 14 4 .timingPoints ∧ ¬keeps 5 6 .timingPoints ∧ ¬keeps 13 14 .general ∧ ¬keeps 4 5 .colours := by decide

example : ¬∀ body, SName.outcome Dec96 5 body .timingPoints = .ok () → ∀ e, SName.outcome Dec96 6 body .timingPoints ≠ .err e :=
  fun h => absurd ((C99_exact .timingPoints (by decide) (by decide)).2 h) (by decide)

/-- Timing points with eight and six columns: readable in version 5, too. -/
example : SName.outcome Dec96 5 c!"1,2,4,1,0,50,1,0\n1,2,4,1,0,50" .timingPoints = .ok () :=
  (C99_section .timingPoints (v := 14) (by decide) (by decide) (by decide) _ (by decide)).resolve_right fun h => absurd h.2.1 (by decide)

/-- A break that ends too late for version 3. -/
example : SName.outcome Dec96 14 c!"2,0,2147483640" .events = .ok () ∧ SName.outcome Dec96 3 c!"2,0,2147483640" .events = .panic := ⟨by decide, by decide⟩

/-- The text after the header of a file with timing points. -/
abbrev timedRest : Str := c!"\n[General]\nMode: 3\n[TimingPoints]\n1,2,4,1,0,50,1,0"

example : (∃ g : OsuFile Dec96, OsuFile.parse (headed 3 timedRest) = .ok g) ∨
    ((OsuFile.parse (headed 3 timedRest) : Res _ (OsuFile Dec96)) = .panic ∧ 3 = 3 ∧ 5 ≤ 14) := by
  obtain ⟨f, h⟩ : ∃ f : OsuFile Dec96, OsuFile.parse (headed 14 timedRest) = .ok f := ⟨_, rfl⟩
  exact C99_older (headed_versioned (by decide) (.inr ⟨_, .inr rfl⟩)) (known_nat (by decide)) (headed_versioned (by decide) (.inr ⟨_, .inr rfl⟩))
    (known_nat (by decide)) (by decide) (by decide) h

example : ∃ g : OsuFile Dec96, OsuFile.parse (headed 7 timedRest) = .ok g := by
  obtain ⟨f, h⟩ : ∃ f : OsuFile Dec96, OsuFile.parse (headed 14 timedRest) = .ok f := ⟨_, rfl⟩
  exact C99_recent (headed_versioned (by decide) (.inr ⟨_, .inr rfl⟩)) (known_nat (by decide)) (headed_versioned (by decide) (.inr ⟨_, .inr rfl⟩))
    (known_nat (by decide)) (by decide) (by decide) h

/-- A file whose sections are read in any version from 3 on. -/
example : ∃ g : OsuFile Dec96, OsuFile.parse (headed 14 c!"\n[Difficulty]\nHPDrainRate:5") = .ok g := by
  obtain ⟨f, h⟩ : ∃ f : OsuFile Dec96, OsuFile.parse (headed 3 c!"\n[Difficulty]\nHPDrainRate:5") = .ok f := ⟨_, rfl⟩
  have hl : Layout c!"\n[Difficulty]\nHPDrainRate:5" [[]] [⟨[], c!"Difficulty", ['\n'], c!"HPDrainRate:5"⟩] [] :=
    layout_iff.2 ⟨by decide, sections_iff.1 (by decide)⟩
  refine (C99_file (headed_versioned (by decide) (.inr ⟨_, .inr rfl⟩)) (known_nat (by decide)) (headed_versioned (by decide) (.inr ⟨_, .inr rfl⟩))
    (known_nat (by decide)) hl (fun x hx n hn => ?_) h).resolve_right fun h => absurd h.2.1 (by decide)
  cases List.mem_singleton.1 hx
  cases n <;> first | trivial | cases hn

/-- It is false that a file is still accepted with every older version in its header: in version 4 the volume of a timing point ends the
line. -/
theorem C99_false : (∃ f : OsuFile Dec96, OsuFile.parse (headed 14 timedRest) = .ok f) ∧
    ∃ e, (OsuFile.parse (headed 4 timedRest) : Res _ (OsuFile Dec96)) = .err e := ⟨⟨_, rfl⟩, ⟨_, rfl⟩⟩

example : (∃ f : OsuFile Dec96, OsuFile.parse (headed 3 c!"\n[TimingPoints]\n1,2") = .ok f) ∧
    ∃ e, (OsuFile.parse (headed 4 c!"\n[TimingPoints]\n1,2") : Res _ (OsuFile Dec96)) = .err e := ⟨⟨_, rfl⟩, ⟨_, rfl⟩⟩

end
end Osu
