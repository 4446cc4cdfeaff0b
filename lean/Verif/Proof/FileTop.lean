/-
The version header and the lines before the first section.
-/
import Verif.Proof.FileLoop
import Verif.Proof.HitSample

namespace Osu
open Parser Ev

/-! ### The version header -/

theorem notEol {n : Str} : AllC (fun c => !(c == '\r' || c == '\n')) n ↔ '\r' ∉ n ∧ '\n' ∉ n := by
  constructor
  · intro h
    exact ⟨fun hm => absurd (h _ hm) (by decide), fun hm => absurd (h _ hm) (by decide)⟩
  · rintro ⟨h1, h2⟩ c hc
    have e1 : c ≠ '\r' := by rintro rfl; exact h1 hc
    have e2 : c ≠ '\n' := by rintro rfl; exact h2 hc
    simp [e1, e2]

theorem headEol {r : Str} : HeadNot (fun c => !(c == '\r' || c == '\n')) r ↔ r = [] ∨ ∃ r', r = '\r' :: r' ∨ r = '\n' :: r' := by
  rw [headNot_iff]
  constructor
  · rintro (h | ⟨c, r', rfl, h⟩)
    · exact .inl h
    · right
      refine ⟨r', ?_⟩
      by_cases h1 : c = '\r'
      · subst h1; exact .inl rfl
      · by_cases h2 : c = '\n'
        · subst h2; exact .inr rfl
        · simp [h1, h2] at h
  · rintro (h | ⟨r', rfl | rfl⟩)
    · exact .inl h
    · exact .inr ⟨_, _, rfl, by decide⟩
    · exact .inr ⟨_, _, rfl, by decide⟩

theorem versionP_eq {s ws num r : Str} (h : Versioned s ws num r) : ∃ s', versionP s = match parseU8 num with
    | .ok v => .ok r (ws, v)
    | _ => .error [(s', .nom .mapRes)] := by
  obtain ⟨⟨bom, hbom, rfl⟩, hw, hn1, hn2, hr⟩ := h
  refine ⟨num ++ r, ?_⟩
  have htw := takeWhile_app (notEol.2 ⟨hn1, hn2⟩) (headEol.2 hr)
  have hdw := dropWhile_app (notEol.2 ⟨hn1, hn2⟩) (headEol.2 hr)
  have hhead : HeadNot isMultispace (bom ++ c!"osu file format v" ++ num ++ r) := by
    rcases hbom with rfl | rfl
    · exact .cons (by decide)
    · exact .cons (by decide)
  have htw1 : (ws ++ bom ++ c!"osu file format v" ++ num ++ r).takeWhile isMultispace = ws := by
    have := takeWhile_app hw hhead
    simpa only [List.append_assoc] using this
  have hdw1 : (ws ++ bom ++ c!"osu file format v" ++ num ++ r).dropWhile isMultispace = bom ++ c!"osu file format v" ++ num ++ r := by
    have := dropWhile_app hw hhead
    simpa only [List.append_assoc] using this
  have hbomP : (alt [tag ['﻿'], ret []] : Parser Unit Str) (bom ++ c!"osu file format v" ++ num ++ r) =
      .ok (c!"osu file format v" ++ num ++ r) bom := by
    rcases hbom with rfl | rfl <;> rfl
  have htag : (tag c!"osu file format v" : Parser Unit Str) (c!"osu file format v" ++ num ++ r) = .ok (num ++ r) c!"osu file format v" :=
    tag_eq_ok.2 ⟨by simp, rfl⟩
  unfold versionP pair multispace0 preceded Parser.bind
  simp only [takeWhile, htw1, hdw1]
  rw [hbomP]
  simp only
  rw [htag]
  simp only [mapRes, takeTill, takeWhile, htw, hdw]
  have := parseU8_no_panic num
  cases hp : parseU8 num with
  | ok v => rfl
  | err e => rfl
  | panic => exact absurd hp this

theorem versionP_not {s : Str} (h : ¬∃ ws num r, Versioned s ws num r) : ∃ s', versionP s = .error [(s', .nom .tag)] := by
  unfold versionP pair multispace0 preceded Parser.bind
  simp only [takeWhile]
  have hs : s = s.takeWhile isMultispace ++ s.dropWhile isMultispace := by rw [List.takeWhile_append_dropWhile]
  have hw := takeWhile_allC isMultispace s
  generalize s.takeWhile isMultispace = ws at hs hw ⊢
  generalize s.dropWhile isMultispace = t at hs ⊢
  have hb : ∃ bom t', (bom = [] ∨ bom = ['﻿']) ∧ t = bom ++ t' ∧
      (alt [tag ['﻿'], ret []] : Parser Unit Str) t = .ok t' bom := by
    by_cases hp : ['﻿'].isPrefixOf t = true
    · refine ⟨['﻿'], t.drop 1, .inr rfl, ?_, ?_⟩
      · rw [List.isPrefixOf_iff_prefix] at hp
        obtain ⟨u, rfl⟩ := hp
        rfl
      · unfold alt; rw [altAux, tag, if_pos hp]; rfl
    · refine ⟨[], t, .inl rfl, rfl, ?_⟩
      unfold alt; rw [altAux, tag, if_neg hp]; rfl
  obtain ⟨bom, t', hb1, rfl, hb2⟩ := hb
  rw [hb2]
  simp only
  by_cases hp : (c!"osu file format v").isPrefixOf t' = true
  · exfalso
    rw [List.isPrefixOf_iff_prefix] at hp
    obtain ⟨u, rfl⟩ := hp
    apply h
    refine ⟨ws, u.takeWhile fun c => !(c == '\r' || c == '\n'), u.dropWhile fun c => !(c == '\r' || c == '\n'), ⟨bom, hb1, ?_⟩, hw,
      (notEol.1 (takeWhile_allC _ _)).1, (notEol.1 (takeWhile_allC _ _)).2, headEol.1 (dropWhile_headNot _ _)⟩
    rw [hs]
    simp [List.append_assoc, List.takeWhile_append_dropWhile]
  · refine ⟨t', ?_⟩
    rw [tag, if_neg hp]

theorem knownVersion_iff {num : Str} {v : Nat} : KnownVersion num v ↔ ∃ u, parseU8 num = .ok u ∧ v = u.toNat ∧ 3 ≤ v ∧ v ≤ 14 := by
  unfold KnownVersion parseU8
  constructor
  · rintro ⟨h, h3, h14⟩
    refine ⟨UInt8.ofNat v, ?_, ?_, h3, h14⟩
    · rw [(parseUnsigned_ok_iff 255 num v).2 ⟨h, by omega⟩]; rfl
    · simp only [UInt8.toNat_ofNat']
      omega
  · rintro ⟨u, h, rfl, h3, h14⟩
    obtain ⟨n, hn, h⟩ := Res.bind_eq_ok.1 h
    cases h
    obtain ⟨h1, h2⟩ := (parseUnsigned_ok_iff 255 num n).1 hn
    have : (UInt8.ofNat n).toNat = n := by simp only [UInt8.toNat_ofNat']; omega
    rw [this] at h3 h14 ⊢
    exact ⟨h1, h3, h14⟩

theorem versioned_unique {s ws num r ws' num' r' : Str} (h : Versioned s ws num r) (h' : Versioned s ws' num' r') :
    ws = ws' ∧ num = num' ∧ r = r' := by
  have key : ∀ {ws num r}, Versioned s ws num r → ws = s.takeWhile isMultispace ∧
      ∃ t, (s.dropWhile isMultispace = c!"osu file format v" ++ t ∨ s.dropWhile isMultispace = '﻿' :: (c!"osu file format v" ++ t)) ∧
        num = t.takeWhile (fun c => !(c == '\r' || c == '\n')) ∧ r = t.dropWhile (fun c => !(c == '\r' || c == '\n')) := by
    rintro ws num r ⟨⟨bom, hbom, rfl⟩, hw, hn1, hn2, hr⟩
    have htw := takeWhile_app (notEol.2 ⟨hn1, hn2⟩) (headEol.2 hr)
    have hdw := dropWhile_app (notEol.2 ⟨hn1, hn2⟩) (headEol.2 hr)
    have hhead : HeadNot isMultispace (bom ++ c!"osu file format v" ++ num ++ r) := by
      rcases hbom with rfl | rfl
      · exact .cons (by decide)
      · exact .cons (by decide)
    refine ⟨?_, num ++ r, ?_, htw.symm, hdw.symm⟩
    · have := takeWhile_app hw hhead
      simpa only [List.append_assoc] using this.symm
    · have := dropWhile_app hw hhead
      simp only [List.append_assoc] at this ⊢
      rw [this]
      rcases hbom with rfl | rfl
      · exact .inl rfl
      · exact .inr rfl
  obtain ⟨rfl, t, ht, rfl, rfl⟩ := key h
  obtain ⟨rfl, t', ht', rfl, rfl⟩ := key h'
  have : t = t' := by
    rcases ht with ht | ht <;> rcases ht' with ht' | ht' <;> rw [ht] at ht'
    · exact List.append_cancel_left ht'
    · exact absurd ht' (by simp)
    · exact absurd ht' (by simp)
    · exact List.append_cancel_left (List.cons.inj ht').2
  subst this
  exact ⟨rfl, rfl, rfl⟩

/-! ### Lines before the first section -/

theorem isPreLine_iff {l : Str} : isPreLine l = true ↔ ¬Bracketed l := by
  unfold isPreLine Bracketed startsWith endsWith
  simp only [trim_trim, Bool.and_eq_true, Bool.not_eq_true']
  rw [← Bool.not_eq_true, ← Bool.not_eq_true, List.isPrefixOf_iff_prefix, List.isSuffixOf_iff_suffix, not_or]
  have h1 : ['['] <+: trim l ↔ ∃ r, trim l = '[' :: r := ⟨fun ⟨r, h⟩ => ⟨r, h.symm⟩, fun ⟨r, h⟩ => ⟨r, h.symm⟩⟩
  have h2 : [']'] <:+ trim l ↔ ∃ r, trim l = r ++ [']'] := ⟨fun ⟨r, h⟩ => ⟨r, h.symm⟩, fun ⟨r, h⟩ => ⟨r, h.symm⟩⟩
  rw [h1, h2]

theorem takeWhile_split {α : Type} {f : α → Bool} {a b : List α} (ha : ∀ x ∈ a, f x = true) (hb : ∀ x, b.head? = some x → f x = false) :
    (a ++ b).takeWhile f = a := by
  induction a with
  | nil =>
    cases b with
    | nil => rfl
    | cons x b => simp [hb x rfl]
  | cons x a ih =>
    rw [List.cons_append, List.takeWhile_cons, if_pos (ha x (by simp)), ih (fun y hy => ha y (by simp [hy]))]

theorem takeWhile_mem {α : Type} {f : α → Bool} {a : List α} {x : α} (h : x ∈ a.takeWhile f) : f x = true := by
  induction a with
  | nil => cases h
  | cons y a ih =>
    rw [List.takeWhile_cons] at h
    split at h
    · rcases List.mem_cons.1 h with rfl | h
      · assumption
      · exact ih h
    · cases h

theorem drop_takeWhile {α : Type} (f : α → Bool) (a : List α) : a.drop (a.takeWhile f).length = a.dropWhile f := by
  induction a with
  | nil => rfl
  | cons y a ih =>
    rw [List.takeWhile_cons, List.dropWhile_cons]
    split
    · simpa using ih
    · rfl

theorem dropWhile_head {α : Type} {f : α → Bool} {a : List α} {x : α} (h : (a.dropWhile f).head? = some x) : f x = false := by
  induction a with
  | nil => cases h
  | cons y a ih =>
    rw [List.dropWhile_cons] at h
    split at h
    · exact ih h
    · rename_i hf; cases h; simpa using hf

theorem layout_iff {s : Str} {pre : List Str} {xs : List Sect} {rest : Str} : Layout s pre xs rest ↔
    pre = (lines s).take (preCount s) ∧ Sections (sectionText s) xs rest := by
  unfold Layout
  constructor
  · rintro ⟨ls, h1, h2, h3, h4⟩
    have : (lines s).takeWhile isPreLine = pre := by
      rw [h1]
      refine takeWhile_split (fun l hl => isPreLine_iff.2 (h2 l hl)) fun l hl => ?_
      rw [← Bool.not_eq_true, isPreLine_iff]
      exact fun h => h (h3 l hl)
    unfold preCount sectionText preCount
    rw [this, h1]
    simp only [List.take_left', List.drop_left', true_and, List.drop_left, List.take_left]
    exact h4
  · rintro ⟨rfl, h⟩
    refine ⟨(lines s).drop (preCount s), by rw [List.take_append_drop], ?_, ?_, h⟩
    · intro l hl
      have : (lines s).take (preCount s) = (lines s).takeWhile isPreLine := by
        unfold preCount
        exact (List.prefix_iff_eq_take.1 (List.takeWhile_prefix _)).symm
      rw [this] at hl
      exact isPreLine_iff.1 (takeWhile_mem hl)
    · intro l hl
      unfold preCount at hl
      rw [drop_takeWhile] at hl
      have := dropWhile_head hl
      rw [← Bool.not_eq_true, isPreLine_iff] at this
      exact Classical.not_not.1 this

theorem layout_exists (s : Str) : ∃ pre xs rest, Layout s pre xs rest := by
  obtain ⟨xs, r, h⟩ := sections_exists (sectionText s)
  exact ⟨_, xs, r, layout_iff.2 ⟨rfl, h⟩⟩

theorem layout_unique {s : Str} {pre pre' : List Str} {xs xs' : List Sect} {rest rest' : Str} (h : Layout s pre xs rest)
    (h' : Layout s pre' xs' rest') : pre = pre' ∧ xs = xs' ∧ rest = rest' := by
  rw [layout_iff] at h h'
  exact ⟨h.1.trans h'.1.symm, sections_unique h.2 h'.2⟩

theorem preCount_layout {s : Str} {pre : List Str} {xs : List Sect} {rest : Str} (h : Layout s pre xs rest) :
    preCount s = pre.length := by
  rw [layout_iff] at h
  rw [h.1, List.length_take]
  have : preCount s ≤ (lines s).length := by
    unfold preCount
    exact (List.takeWhile_prefix _).length_le
  omega

theorem ignorable_iff {l : Str} : Ignorable l ↔ trim l = [] ∨ startsWith (trim l) ['/', '/'] = true := by
  unfold Ignorable startsWith
  rw [List.isPrefixOf_iff_prefix]
  have : ['/', '/'] <+: trim l ↔ ∃ r, trim l = '/' :: '/' :: r := ⟨fun ⟨r, h⟩ => ⟨r, h.symm⟩, fun ⟨r, h⟩ => ⟨r, h.symm⟩⟩
  rw [this]

theorem preBad_none {n : Nat} {ls : List Str} : preBad n ls = none ↔ ∀ l ∈ ls, Ignorable l := by
  induction ls generalizing n with
  | nil => simp [preBad]
  | cons l ls ih =>
    rw [preBad]
    simp only [List.mem_cons, forall_eq_or_imp]
    rw [ignorable_iff (l := l)]
    split
    · rename_i h; rw [ih]; simp [h]
    · split
      · rename_i h; rw [ih]; simp [h]
      · rename_i h h'; simp [h, h']

theorem preBad_some {n k : Nat} {ls : List Str} : preBad n ls = some k ↔
    ∃ a l b, ls = a ++ l :: b ∧ k = n + a.length ∧ (∀ x ∈ a, Ignorable x) ∧ ¬Ignorable l := by
  induction ls generalizing n with
  | nil => simp [preBad]
  | cons l ls ih =>
    rw [preBad]
    have hcase : (if trim l = [] then preBad (n + 1) ls else if startsWith (trim l) ['/', '/'] = true then preBad (n + 1) ls else some n) =
        open Classical in if Ignorable l then preBad (n + 1) ls else some n := by
      by_cases h : trim l = []
      · rw [if_pos h, if_pos (ignorable_iff.2 (.inl h))]
      · rw [if_neg h]
        by_cases h' : startsWith (trim l) ['/', '/'] = true
        · rw [if_pos h', if_pos (ignorable_iff.2 (.inr h'))]
        · rw [if_neg h', if_neg (fun e => (ignorable_iff.1 e).elim h h')]
    rw [hcase]
    split
    · rename_i h
      rw [ih]
      constructor
      · rintro ⟨a, l', b, rfl, rfl, h1, h2⟩
        exact ⟨l :: a, l', b, rfl, by simp; omega, by simpa using ⟨h, h1⟩, h2⟩
      · rintro ⟨a, l', b, e, rfl, h1, h2⟩
        cases a with
        | nil => cases e; exact absurd h h2
        | cons x a =>
          cases e
          exact ⟨a, l', b, rfl, by simp; omega, fun y hy => h1 y (by simp [hy]), h2⟩
    · rename_i h
      constructor
      · intro e; cases e; exact ⟨[], l, ls, rfl, rfl, by simp, h⟩
      · rintro ⟨a, l', b, e, rfl, h1, h2⟩
        cases a with
        | nil => rfl
        | cons x a => cases e; exact absurd (h1 l (by simp)) h

/-! ### The whole file -/

section
variable {D : Type} [DecLib D] [UniLib]

theorem parseRest_eq {v : Nat} {ws s : Str} {pre : List Str} {xs : List Sect} {rest : Str} (h : Layout s pre xs rest)
    (hp : ∀ l ∈ pre, Ignorable l) : (OsuFile.parseRest v ws s : Res (LErr FileErr) (OsuFile D)) =
      fileLoop v xs ((lines ws).length + pre.length) [] (OsuFile.new v) := by
  unfold OsuFile.parseRest
  have hc := preCount_layout h
  obtain ⟨h1, h2⟩ := layout_iff.1 h
  rw [← h1, preBad_none.2 hp, sections_iff.2 h2, hc]

theorem parseRest_bad {v : Nat} {ws s : Str} {a b : List Str} {l : Str} {xs : List Sect} {rest : Str}
    (h : Layout s (a ++ l :: b) xs rest) (ha : ∀ x ∈ a, Ignorable x) (hl : ¬Ignorable l) :
    (OsuFile.parseRest v ws s : Res (LErr FileErr) (OsuFile D)) = .err ⟨a.length, .unexpectedLine⟩ := by
  unfold OsuFile.parseRest
  obtain ⟨h1, h2⟩ := layout_iff.1 h
  rw [← h1, preBad_some.2 ⟨a, l, b, rfl, (Nat.zero_add _).symm, ha, hl⟩]

theorem parse_versioned {s ws num r : Str} (h : Versioned s ws num r) {v : Nat} (hv : KnownVersion num v) :
    (OsuFile.parse s : Res (LErr FileErr) (OsuFile D)) = OsuFile.parseRest v ws r := by
  obtain ⟨s', e⟩ := versionP_eq h
  obtain ⟨u, hu, rfl, h3, h14⟩ := knownVersion_iff.1 hv
  rw [hu] at e
  unfold OsuFile.parse
  rw [e]
  simp only
  rw [if_neg (fun h => h ⟨h3, h14⟩)]

theorem parse_badVersion {s ws num r : Str} (h : Versioned s ws num r) (hv : ¬∃ v, KnownVersion num v) :
    (OsuFile.parse s : Res (LErr FileErr) (OsuFile D)) = .err ⟨0, .invalidFileVersion⟩ := by
  obtain ⟨s', e⟩ := versionP_eq h
  unfold OsuFile.parse
  rw [e]
  cases hp : parseU8 num with
  | ok u =>
    simp only
    rw [if_pos]
    intro h
    exact hv ⟨_, knownVersion_iff.2 ⟨u, hp, rfl, h⟩⟩
  | err e => rfl
  | panic => exact absurd hp (parseU8_no_panic _)

theorem parse_unversioned {s : Str} (h : ¬∃ ws num r, Versioned s ws num r) :
    (OsuFile.parse s : Res (LErr FileErr) (OsuFile D)) = .err ⟨0, .fileVersionDefinedWrong⟩ := by
  obtain ⟨s', e⟩ := versionP_not h
  unfold OsuFile.parse
  rw [e]

end

end Osu
