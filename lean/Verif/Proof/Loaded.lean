/-
What is known of the items of a text that was read, whatever carriage returns it has, and in which versions they are read back.
-/
import Verif.Props.FileExact

namespace Osu
open Parser Ev

/-! ### Lines -/

theorem splitNL_ne_nil' (s : Str) : splitNL s ≠ [] := by
  cases s with
  | nil => simp [splitNL]
  | cons c s =>
    unfold splitNL
    split
    · simp
    · split <;> simp

theorem lines_cons {u : Str} (hu : NoLF u) (r : Str) : lines (u ++ '\n' :: r) = stripCR u :: lines r := by
  unfold lines
  rw [splitNL_append_nl hu]
  obtain ⟨l, ls, e⟩ := List.exists_cons_of_ne_nil (splitNL_ne_nil' r)
  rw [e]; rfl

theorem stripCR_prefix (u : Str) : ∃ b, u = stripCR u ++ b := by
  unfold stripCR
  split
  · rename_i h
    obtain ⟨a, rfl⟩ := List.getLast?_eq_some_iff.1 h
    exact ⟨['\r'], by simp⟩
  · exact ⟨[], by simp⟩

/-- Where a line stands in the text. -/
theorem lines_mem_at {s l : Str} (h : l ∈ lines s) : ∃ a b, s = a ++ (l ++ b) ∧ (a = [] ∨ ∃ a', a = a' ++ ['\n']) := by
  obtain ⟨n, hn⟩ : ∃ n, s.length = n := ⟨_, rfl⟩
  induction n using Nat.strongRecOn generalizing s with
  | _ n ih =>
    obtain ⟨u, rest, rfl, hu, hr⟩ := firstLine_split s
    rcases hr with rfl | ⟨r, rfl⟩
    · rw [List.append_nil] at h
      by_cases hne : u = []
      · subst hne; cases h
      · rw [lines_single hu hne, List.mem_singleton] at h
        subst h
        exact ⟨[], [], rfl, .inl rfl⟩
    · rw [lines_cons hu] at h
      rcases List.mem_cons.1 h with rfl | h
      · obtain ⟨b, hb⟩ := stripCR_prefix u
        exact ⟨[], b ++ '\n' :: r, by conv => lhs; rw [hb]
                                      simp, .inl rfl⟩
      · obtain ⟨a, b, e, ha⟩ := ih r.length (by rw [← hn]; simp; omega) h rfl
        refine ⟨u ++ '\n' :: a, b, by rw [e]; simp, .inr ?_⟩
        rcases ha with rfl | ⟨a', rfl⟩
        · exact ⟨u, rfl⟩
        · exact ⟨u ++ '\n' :: a', by simp⟩

/-- The lines of a section but for the first do not begin with a bracket. -/
theorem body_lines {body : Str} (hbr : ∀ a b, body ≠ a ++ '\n' :: '[' :: b) : ∀ l ∈ (lines body).tail, l.head? ≠ some '[' := by
  intro l hl hx
  obtain ⟨l', rfl⟩ : ∃ l', l = '[' :: l' := by
    cases l with
    | nil => cases hx
    | cons d l => cases hx; exact ⟨l, rfl⟩
  obtain ⟨u, rest, e, hu, hr⟩ := firstLine_split body
  rcases hr with rfl | ⟨r, rfl⟩
  · rw [List.append_nil] at e
    subst e
    by_cases hne : body = []
    · subst hne; cases hl
    · rw [lines_single hu hne] at hl; cases hl
  · rw [e, lines_cons hu, List.tail_cons] at hl
    obtain ⟨p, q, e1, hp⟩ := lines_mem_at hl
    rcases hp with rfl | ⟨p', rfl⟩
    · exact hbr u (l' ++ q) (by rw [e, e1]; simp)
    · exact hbr (u ++ '\n' :: p') (l' ++ q) (by rw [e, e1]; simp)

section
variable {D : Type} [DecLib D]

/-- The items of a section but for the first do not look like the header of a section. -/
theorem items_rest {E α : Type} {f : Str → Res E α} {lead : α → Decimal D} (hf : ∀ l a, f l = .ok a → LeadOf l (lead a))
    {body : Str} (hbr : ∀ a b, body ≠ a ++ '\n' :: '[' :: b) {as : List α} (h : parseLines f body = .ok as) :
    ∀ y ∈ as.tail, NotBracket (lead y) := by
  rw [parseLines_ok_iff] at h
  have hb := body_lines hbr
  have key : ∀ {us : List Str} {bs : List α}, (us.filter nonBlank).map f = bs.map .ok → (∀ l ∈ us, l.head? ≠ some '[') →
      ∀ y ∈ bs, NotBracket (lead y) := by
    intro us bs hub hus y hy
    have : Res.ok y ∈ (us.filter nonBlank).map f := by rw [hub]; exact List.mem_map_of_mem hy
    obtain ⟨l, hl, hlz⟩ := List.mem_map.1 this
    exact (hf l y hlz).notBracket (hus l (List.mem_filter.1 hl).1)
  cases hl : lines body with
  | nil => rw [hl] at h; cases as with
    | nil => nofun
    | cons a as => cases h
  | cons u us =>
    rw [hl] at h hb
    cases as with
    | nil => nofun
    | cons a as =>
      rw [List.tail_cons] at hb ⊢
      by_cases hu : nonBlank u = true
      · rw [List.filter_cons_of_pos hu, List.map_cons, List.map_cons, List.cons.injEq] at h
        exact key h.2 hb
      · rw [List.filter_cons_of_neg hu] at h
        exact fun y hy => key h hb y (List.mem_cons_of_mem _ hy)

/-- The sections of a text. -/
theorem layout_bodies {r rest : Str} {pre : List Str} {xs : List Sect} (hl : Layout r pre xs rest) :
    ∃ t, ∀ x ∈ xs, x.body ≠ [] → BodyIn t x.body := by
  obtain ⟨ls, -, -, -, h4⟩ := hl
  exact ⟨_, sections_bodies h4⟩

/-! ### Times and samples -/

theorem number_back {d : D} (h : DecLib.canon d) : DecLib.parse (DecLib.shw d) = some d := DecLib.parse_shw h

/-- A number read in a version that does not move times is read back. -/
theorem time_new {v : Nat} {p : Str} {d : D} (h : TimeReads v p (.left d)) (hv : 5 ≤ v) : DecLib.parse (DecLib.shw d) = some d := by
  unfold TimeReads at h
  cases hp : (DecLib.parse p : Option D) with
  | none => rw [hp] at h; cases h
  | some e =>
    rw [hp] at h
    simp only at h
    rw [if_neg (by omega)] at h
    cases h
    exact number_back (DecLib.parse_canon hp)

theorem time_text {v : Nat} {p q : Str} (h : TimeReads v p (.right q : Decimal D)) : q = p ∧ (DecLib.parse p : Option D) = none := by
  unfold TimeReads at h
  cases hp : (DecLib.parse p : Option D) with
  | none => rw [hp] at h; cases h; exact ⟨rfl, rfl⟩
  | some d =>
    rw [hp] at h
    simp only at h
    split at h
    · obtain ⟨_, _, h⟩ := h; cases h
    · cases h

/-- A number that was read survives in version `w` if it has to be asked for only where times are moved. -/
theorem number_at {v w : Nat} {p : Str} {d : D} (h : TimeReads v p (.left d)) (hn : v ≤ 4 ∨ w ≤ 4 → TimeSurvives w (.left d)) :
    TimeSurvives w (.left d) := by
  by_cases hvw : v ≤ 4 ∨ w ≤ 4
  · exact hn hvw
  · show if 3 ≤ w ∧ w ≤ 4 then _ else _
    rw [if_neg (by omega)]
    exact time_new h (by omega)

theorem time_at {v w : Nat} {p : Str} {x : Decimal D} (h : TimeReads v p x) (hp : ',' ∉ p)
    (hn : v ≤ 4 ∨ w ≤ 4 → ∀ d, x = .left d → TimeSurvives w (.left d)) : TimeSurvives w x := by
  cases x with
  | left d => exact number_at h fun hv => hn hv d rfl
  | right q => obtain ⟨rfl, h2⟩ := time_text h; exact ⟨h2, hp⟩

theorem hold_end_at {v w : Nat} {p : Str} {x : Decimal D} (h : TimeReads v p x) (hp : ':' ∉ p)
    (hn : v ≤ 4 ∨ w ≤ 4 → ∀ d, x = .left d → TimeSurvives w (.left d)) : HoldEndSurvives w x := by
  cases x with
  | left d => exact number_at h fun hv => hn hv d rfl
  | right q => obtain ⟨rfl, h2⟩ := time_text h; exact ⟨h2, hp⟩

theorem ofStr_field {p : Str} (hp : ',' ∉ p) : FieldSurvives (Decimal.ofStr p : Decimal D) := by
  unfold Decimal.ofStr
  cases h : (DecLib.parse p : Option D) with
  | some d => exact number_back (DecLib.parse_canon h)
  | none => exact ⟨h, hp⟩

/-- What holds for every hit sample that was read. -/
theorem sample_read {s : Str} {h : HO.HitSample} (hr : SampleReads (splitOnC ':' s) h) :
    HOSetNamed h.normalSet ∧ HOSetNamed h.additionSet ∧ h.index ≠ .index 0 ∧ (∀ n, h.volume.val = some n → 1 ≤ n.toNat ∧ n.toNat ≤ 100) ∧
      ':' ∉ h.filename := by
  have nm : ∀ {p : Option Str} {x : HO.SampleSet}, fieldIs HO.SampleSet.parse .noCustom p x → HOSetNamed x := by
    intro p x hx
    cases p with
    | none => cases hx; trivial
    | some p => exact HO.SampleSet.named_parse hx
  refine ⟨nm hr.normalSet, nm hr.additionSet, ?_, ?_, ?_⟩
  · have := hr.index
    generalize (dropBlankLast (splitOnC ':' s))[2]? = p at this
    cases p with
    | none => have : h.index = .timingPoint := this; rw [this]; nofun
    | some p => exact HO.SampleIndex.valid_parse this
  · have := hr.volume
    generalize (dropBlankLast (splitOnC ':' s))[3]? = p at this
    cases p with
    | none => have : h.volume = ⟨none⟩ := this; rw [this]; nofun
    | some p => exact HO.Volume.valid_parse this
  · intro hc
    rw [hr.filename] at hc
    cases hp : (dropBlankLast (splitOnC ':' s))[4]? with
    | none => rw [hp] at hc; cases hc
    | some p =>
      rw [hp] at hc
      exact noC_mem.1 (splitOnC_chars ':' s p (dropBlankLast_sub (List.mem_of_getElem? hp))) hc

theorem sample_at {w : Nat} {s : Str} {h : HO.HitSample} (hr : SampleReads (splitOnC ':' s) h)
    (hsh : ShortSample w → h.volume = ⟨none⟩ ∧ h.filename = []) (hb : h.filename = [] ∨ blanks h.filename = false) : SampleSurvives w h :=
  let ⟨h1, h2, h3, h4, h5⟩ := sample_read hr
  ⟨h1, h2, h3, hsh, h4, h5, hb⟩

end

end Osu
