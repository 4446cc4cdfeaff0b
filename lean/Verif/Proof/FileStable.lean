/-
Saving a file again: what is read from a file can be written.
-/
import Verif.Proof.FileWell
import Verif.Props.File

namespace Osu
open Parser Ev

/-! ### Lines of a text without carriage returns -/

theorem firstLine_split (s : Str) : ∃ u rest, s = u ++ rest ∧ NoLF u ∧ (rest = [] ∨ ∃ r, rest = '\n' :: r) := by
  induction s with
  | nil => exact ⟨[], [], rfl, .nil, .inl rfl⟩
  | cons c s ih =>
    by_cases hc : c = '\n'
    · exact ⟨[], c :: s, rfl, .nil, .inr ⟨s, by rw [hc]⟩⟩
    · obtain ⟨u, rest, rfl, h1, h2⟩ := ih
      exact ⟨c :: u, rest, rfl, AllC.cons (by simpa using hc) h1, h2⟩

theorem noEndCR_of {l : Str} (h : '\r' ∉ l) : NoEndCR l := fun e => h (List.mem_of_getLast? e)

/-- The first line of a text no line of which ends in a carriage return. -/
theorem CleanEnds.first {u rest : Str} (h : CleanEnds (u ++ rest)) (hr : rest = [] ∨ ∃ r, rest = '\n' :: r) : NoEndCR u := by
  intro e
  obtain ⟨a, rfl⟩ := List.getLast?_eq_some_iff.1 e
  have := h a rest (by simp)
  rcases hr with rfl | ⟨r, rfl⟩
  · exact this.1 rfl
  · exact this.2 rfl

theorem CleanEnds.rest {u r : Str} (h : CleanEnds (u ++ '\n' :: r)) : CleanEnds r :=
  CleanEnds.suffix (a := u ++ ['\n']) (by simpa using h)

theorem lines_mem_split_ce {s : Str} (hs : CleanEnds s) {l : Str} (h : l ∈ lines s) :
    ∃ a b, s = a ++ (l ++ b) ∧ (a = [] ∨ ∃ a', a = a' ++ ['\n']) := by
  obtain ⟨n, hn⟩ : ∃ n, s.length = n := ⟨_, rfl⟩
  induction n using Nat.strongRecOn generalizing s with
  | _ n ih =>
    obtain ⟨u, rest, rfl, hu, hr⟩ := firstLine_split s
    have hcr : NoEndCR u := hs.first hr
    rcases hr with rfl | ⟨r, rfl⟩
    · rw [List.append_nil] at h
      by_cases hne : u = []
      · subst hne; cases h
      · rw [lines_single hu hne, List.mem_singleton] at h
        subst h
        exact ⟨[], [], rfl, .inl rfl⟩
    · rw [lines_append_nl hu hcr] at h
      rcases List.mem_cons.1 h with rfl | h
      · exact ⟨[], '\n' :: r, rfl, .inl rfl⟩
      · obtain ⟨a, b, e, ha⟩ := ih r.length (by rw [← hn]; simp; omega) hs.rest h rfl
        refine ⟨u ++ '\n' :: a, b, by rw [e]; simp, .inr ?_⟩
        rcases ha with rfl | ⟨a', rfl⟩
        · exact ⟨u, rfl⟩
        · exact ⟨u ++ '\n' :: a', by simp⟩

theorem lines_text_ce {s : Str} (hs : CleanEnds s) : s = join ['\n'] (lines s) ∨ s = join ['\n'] (lines s) ++ ['\n'] := by
  obtain ⟨n, hn⟩ : ∃ n, s.length = n := ⟨_, rfl⟩
  induction n using Nat.strongRecOn generalizing s with
  | _ n ih =>
    obtain ⟨u, rest, rfl, hu, hr⟩ := firstLine_split s
    have hcr : NoEndCR u := hs.first hr
    rcases hr with rfl | ⟨r, rfl⟩
    · rw [List.append_nil]
      by_cases hne : u = []
      · subst hne; exact .inl rfl
      · rw [lines_single hu hne]; exact .inl rfl
    · rw [lines_append_nl hu hcr]
      cases hl : lines r with
      | nil =>
        have : r = [] := lines_len_zero.1 (by rw [hl]; rfl)
        subst this
        exact .inr rfl
      | cons l ls =>
        have := ih r.length (by rw [← hn]; simp; omega) hs.rest rfl
        rw [hl] at this
        rcases this with e | e
        · left; conv => lhs; rw [e]
          simp [join]
        · right; conv => lhs; rw [e]
          simp [join]

theorem lines_mem_split {s : Str} (hs : '\r' ∉ s) {l : Str} (h : l ∈ lines s) :
    ∃ a b, s = a ++ (l ++ b) ∧ (a = [] ∨ ∃ a', a = a' ++ ['\n']) := lines_mem_split_ce (cleanEnds_of_noCR hs) h

theorem lines_text {s : Str} (hs : '\r' ∉ s) : s = join ['\n'] (lines s) ∨ s = join ['\n'] (lines s) ++ ['\n'] :=
  lines_text_ce (cleanEnds_of_noCR hs)

theorem join_suffix (pre ls : List Str) : ∃ p, join ['\n'] (pre ++ ls) = p ++ join ['\n'] ls := by
  induction pre with
  | nil => exact ⟨[], rfl⟩
  | cons a pre ih =>
    obtain ⟨p, hp⟩ := ih
    cases h : pre ++ ls with
    | nil =>
      have : ls = [] := (List.append_eq_nil_iff.1 h).2
      subst this
      exact ⟨join ['\n'] (a :: pre ++ []), by simp [join]⟩
    | cons b t =>
      refine ⟨a ++ '\n' :: p, ?_⟩
      rw [List.cons_append, h, join, ← h, hp]
      simp

/-- The text of a section inside the text of a file. -/
structure BodyIn (s body : Str) : Prop where
  inside : ∃ a c, s = a ++ (body ++ c) ∧ (c = [] ∨ ∃ c', c = '\n' :: c')
  head : HeadNot isMultispace body
  bracket : ∀ a b, body ≠ a ++ '\n' :: '[' :: b

theorem sections_bodies {t rest : Str} {xs : List Sect} (h : Sections t xs rest) : ∀ x ∈ xs, x.body ≠ [] → BodyIn t x.body := by
  induction h with
  | nil _ => nofun
  | @cons x s xs r hw hn hw2 hb he h' ih =>
    intro y hy hne
    rcases List.mem_cons.1 hy with rfl | hy
    · refine ⟨⟨y.ws ++ '[' :: (y.name ++ ']' :: y.ws2), s, by simp, he.1.imp id fun ⟨r', e⟩ => ⟨_, e⟩⟩, ?_, he.2⟩
      obtain ⟨c, b, e⟩ := List.exists_cons_of_ne_nil hne
      rw [e] at hb ⊢
      exact .cons hb.of_cons
    · obtain ⟨⟨a, c, e, hc⟩, h1, h2⟩ := ih y hy hne
      exact ⟨⟨x.ws ++ '[' :: (x.name ++ ']' :: (x.ws2 ++ (x.body ++ a))), c, by conv => lhs; rw [e]
                                                                                simp, hc⟩, h1, h2⟩

theorem lines_app_mem {a b l : Str} (h : l ∈ lines b) : ∃ p, p ++ l ∈ lines (a ++ b) := by
  obtain ⟨j, hj⟩ := List.mem_iff_getElem?.1 h
  obtain ⟨p, hp, -⟩ := lines_app_get (a := a) hj
  exact ⟨p, List.mem_of_getElem? hp⟩

/-- Where a line of the text ends, it is the end of a line in the list. -/
theorem join_line {ls : List Str} (hl : ∀ l ∈ ls, NoLF l) {a u c : Str} (e : join ['\n'] ls = a ++ (u ++ c)) (hu : NoLF u)
    (hne : u ≠ []) (hc : c = [] ∨ ∃ c', c = '\n' :: c') : ∃ l ∈ ls, ∃ p, l = p ++ u := by
  have hls : ls ≠ [] := by
    rintro rfl
    have := congrArg List.length e
    simp [join] at this
    exact hne (List.length_eq_zero_iff.1 (by omega))
  have h1 := splitNL_join hls hl
  obtain ⟨A, x, y, B, h2, h3, h4, -, -⟩ := splitNL_app (a := a) (b := u ++ c)
  rw [e, h4] at h1
  have hy : y = u := by
    rcases hc with rfl | ⟨c', rfl⟩
    · rw [List.append_nil, splitNL_noLF hu] at h3
      cases h3; rfl
    · rw [splitNL_append_nl hu] at h3
      cases h3; rfl
  subst hy
  exact ⟨x ++ y, by rw [← h1]; simp, x, rfl⟩

theorem join_noCR {ls : List Str} (h : ∀ l ∈ ls, '\r' ∉ l) : '\r' ∉ join ['\n'] ls := by
  induction ls with
  | nil => simp [join]
  | cons a ls ih =>
    cases ls with
    | nil => simpa [join] using h a (by simp)
    | cons b ls =>
      rw [join]
      have := ih fun l hl => h l (by simp [hl])
      have ha := h a (by simp)
      simp [this, ha]

/-- The text the sections of a file are read from. -/
theorem file_bodies {s ws num r rest : Str} {pre : List Str} {xs : List Sect} (hs : NoBareCR s) (ht : TrailPlain s) (hv : Versioned s ws num r)
    (hl : Layout r pre xs rest) : ∃ t, '\r' ∉ t ∧ (∀ x ∈ xs, x.body ≠ [] → BodyIn t x.body) ∧
      ∀ a u c, t = a ++ (u ++ c) → NoLF u → (c = [] ∨ ∃ c', c = '\n' :: c') → AllC isWs u → AllC isMultispace u := by
  obtain ⟨⟨bom, -, e⟩, -⟩ := hv
  obtain ⟨ls, h1, -, -, h4⟩ := hl
  have hm : ∀ l ∈ ls, ∃ p, p ++ l ∈ lines s := by
    intro l hl
    rw [e]
    exact lines_app_mem (by rw [h1]; simp [hl])
  refine ⟨_, join_noCR fun l hl hc => ?_, sections_bodies h4, ?_⟩
  · obtain ⟨p, hp⟩ := hm l hl
    exact hs _ hp (by simp [hc])
  · intro a u c e1 hu hc hw
    by_cases hne : u = []
    · subst hne; exact .nil
    · obtain ⟨l, hl, q, rfl⟩ := join_line (fun l hl => lines_noLF r l (by rw [h1]; simp [hl])) e1 hu hne hc
      obtain ⟨p, hp⟩ := hm _ hl
      exact ht _ hp (p ++ q) u (by simp) hw

/-! ### The items of a section that is read line by line -/

section
variable {D : Type} [DecLib D]

/-- The decimal a line begins with is a number, or the text up to the first comma. -/
def LeadOf (l : Str) (d : Decimal D) : Prop := ∀ p, d = .right p → ∃ ps, splitOnC ',' l = p :: ps

theorem LeadOf.head {l p : Str} {d : Decimal D} (h : LeadOf l d) (hd : d = .right p) {c : Char} {q : Str} (hp : p = c :: q) :
    ∃ r, l = c :: r := by
  obtain ⟨ps, e⟩ := h p hd
  exact splitOnC_head e hp

theorem LeadOf.notIndented {l : Str} {d : Decimal D} (h : LeadOf l d) (hl : HeadNot isMultispace l) : NotIndented d := by
  cases d with
  | left _ => trivial
  | right p =>
    show HeadNot isMultispace p
    cases p with
    | nil => exact .nil
    | cons c q =>
      obtain ⟨r, rfl⟩ := h.head rfl rfl
      exact .cons hl.of_cons

theorem LeadOf.notBracket {l : Str} {d : Decimal D} (h : LeadOf l d) (hl : l.head? ≠ some '[') : NotBracket d := by
  cases d with
  | left _ => trivial
  | right p =>
    show p.head? ≠ some '['
    intro e
    cases p with
    | nil => cases e
    | cons c q =>
      cases e
      obtain ⟨r, rfl⟩ := h.head rfl rfl
      exact hl rfl

/-- The items of a section whose text begins with a line that is not blank. -/
theorem items_start_of {E α : Type} {f : Str → Res E α} {lead : α → Decimal D} (hf : ∀ l a, f l = .ok a → LeadOf l (lead a))
    {body : Str} (hcr : CleanEnds body) (hh : HeadNot isMultispace body) (hbr : ∀ a b, body ≠ a ++ '\n' :: '[' :: b)
    (hfirst : ∀ u rest, body = u ++ rest → NoLF u → (rest = [] ∨ ∃ r, rest = '\n' :: r) → nonBlank u = true) (hne : body ≠ [])
    {as : List α} (h : parseLines f body = .ok as) : as ≠ [] ∧ StartsOK (as.map lead) := by
  rw [parseLines_ok_iff] at h
  obtain ⟨u, rest, eb, hu, hr⟩ := firstLine_split body
  have hucr : NoEndCR u := CleanEnds.first (eb ▸ hcr) hr
  have hune : u ≠ [] := by
    rintro rfl
    rcases hr with rfl | ⟨r, rfl⟩
    · exact hne eb
    · rw [eb] at hh; exact absurd hh.of_cons (by decide)
  have hhu : HeadNot isMultispace u := by
    obtain ⟨x, y, e⟩ := List.exists_cons_of_ne_nil hune
    rw [eb, e] at hh
    rw [e]
    exact .cons hh.of_cons
  have hnb : nonBlank u = true := hfirst u rest eb hu hr
  have hlines : ∃ us, lines body = u :: us ∧ ∀ l ∈ us, l.head? ≠ some '[' := by
    rcases hr with rfl | ⟨r, rfl⟩
    · rw [List.append_nil] at eb
      exact ⟨[], by rw [eb, lines_single hu hune], nofun⟩
    · refine ⟨lines r, by rw [eb, lines_append_nl hu hucr], fun l hl hx => ?_⟩
      obtain ⟨p, q, e1, hp⟩ := lines_mem_split_ce (CleanEnds.rest (eb ▸ hcr)) hl
      obtain ⟨l', rfl⟩ : ∃ l', l = '[' :: l' := by
        cases l with
        | nil => cases hx
        | cons d l => cases hx; exact ⟨l, rfl⟩
      rcases hp with rfl | ⟨p', rfl⟩
      · exact hbr u (l' ++ q) (by rw [eb, e1]; simp)
      · exact hbr (u ++ '\n' :: p') (l' ++ q) (by rw [eb, e1]; simp)
  obtain ⟨us, hus, hb2⟩ := hlines
  rw [hus, List.filter_cons_of_pos hnb, List.map_cons] at h
  cases as with
  | nil => cases h
  | cons x xs =>
    simp only [List.map_cons, List.cons.injEq] at h
    refine ⟨by simp, (hf u x h.1).notIndented hhu, ?_⟩
    intro y hy
    obtain ⟨z, hz, rfl⟩ := List.mem_map.1 hy
    have : Res.ok z ∈ (us.filter nonBlank).map f := by rw [h.2]; exact List.mem_map_of_mem hz
    obtain ⟨l, hl, hlz⟩ := List.mem_map.1 this
    exact (hf l z hlz).notBracket (hb2 l (List.mem_filter.1 hl).1)

theorem items_start {E α : Type} {f : Str → Res E α} {lead : α → Decimal D} (hf : ∀ l a, f l = .ok a → LeadOf l (lead a))
    {s body : Str} (hs : '\r' ∉ s)
    (ht : ∀ a u c, s = a ++ (u ++ c) → NoLF u → (c = [] ∨ ∃ c', c = '\n' :: c') → AllC isWs u → AllC isMultispace u) (hb : BodyIn s body) (hne : body ≠ []) {as : List α}
    (h : parseLines f body = .ok as) : as ≠ [] ∧ StartsOK (as.map lead) := by
  obtain ⟨⟨a, c, e, hc⟩, hh, hbr⟩ := hb
  refine items_start_of hf (cleanEnds_of_noCR fun x => hs (by rw [e]; simp [x])) hh hbr (fun u rest eb hu hr => ?_) hne h
  rw [nonBlank_iff, Ne, trim_eq_nil]
  intro hw
  have := ht a u (rest ++ c) (by rw [e, eb]; simp) hu (by
    rcases hr with rfl | ⟨r, rfl⟩
    · simpa using hc
    · exact .inr ⟨_, rfl⟩) hw
  cases u with
  | nil =>
    rcases hr with rfl | ⟨r, rfl⟩
    · exact hne eb
    · rw [eb] at hh; exact absurd hh.of_cons (by decide)
  | cons x y =>
    rw [eb] at hh
    have h1 := hh.of_cons
    rw [this.of_cons.1] at h1
    cases h1

theorem timeReads_lead {v : Nat} {p : Str} {d : Decimal D} (h : TimeReads v p d) {q : Str} (hq : d = .right q) : q = p := by
  unfold TimeReads at h
  cases hd : (DecLib.parse p : Option D) with
  | none => rw [hd, hq] at h; cases h; rfl
  | some x =>
    rw [hd, hq] at h
    simp only at h
    split at h
    · obtain ⟨_, _, h⟩ := h; cases h
    · cases h

theorem tp_lead {v : Nat} {l : Str} {t : TimingPoint D} (h : TimingPoint.parse v l = .ok t) : LeadOf l t.time := by
  have h := TimingPoint.parse_iff.1 h
  intro q hq
  generalize hps : splitOnC ',' l = ps at h
  cases h with
  | old hv ht => have := timeReads_lead ht hq; subst this; exact ⟨_, rfl⟩
  | four hv h => have := timeReads_lead h.time hq; subst this; exact ⟨_, rfl⟩
  | six hv h => have := timeReads_lead h.time hq; subst this; exact ⟨_, rfl⟩
  | seven hv h => have := timeReads_lead h.time hq; subst this; exact ⟨_, rfl⟩
  | eight hv h => have := timeReads_lead h.time hq; subst this; exact ⟨_, rfl⟩

theorem ofStr_lead {p q : Str} {d : Decimal D} (h : d = Decimal.ofStr p) (hq : d = .right q) : q = p := by
  rw [hq] at h
  unfold Decimal.ofStr at h
  split at h
  · cases h
  · cases h; rfl

theorem ho_lead {v : Nat} {l : Str} {o : HitObject D} (h : HitObject.parse v l = .ok o) : LeadOf l o.position.x := by
  have h := HitObject.parse_iff.1 h
  intro q hq
  generalize hps : splitOnC ',' l = ps at h
  cases h with
  | circle h => have := ofStr_lead h.x hq; subst this; exact ⟨_, rfl⟩
  | slider h => have := ofStr_lead h.x hq; subst this; exact ⟨_, rfl⟩
  | spinner h => have := ofStr_lead h.x hq; subst this; exact ⟨_, rfl⟩
  | hold h => have := ofStr_lead h.x hq; subst this; exact ⟨_, rfl⟩

end

end Osu
