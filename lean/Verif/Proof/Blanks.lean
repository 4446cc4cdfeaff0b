/-
Blanks in the texts of key/value sections.
-/
import Verif.Proof.KVGrammar
import Verif.Proof.Endings

namespace Osu
open Parser

theorem takeWhile_stop {α : Type} {p : α → Bool} {b : List α} {c : α} {z : List α} (hc : p c = false) :
    (b ++ c :: z).takeWhile p = b.takeWhile p := by
  induction b with
  | nil => simp [hc]
  | cons a b ih => cases h : p a <;> simp [h, ih]

theorem dropWhile_stop {α : Type} {p : α → Bool} {b : List α} {c : α} {z : List α} (hc : p c = false) :
    (b ++ c :: z).dropWhile p = b.dropWhile p ++ c :: z := by
  induction b with
  | nil => simp [hc]
  | cons a b ih => cases h : p a <;> simp [h, ih]

/-- What `fieldLine` does with a text whose first line has a colon. -/
theorem fieldLine_colon {a : Str} (ha : AllC (fun c => !(c == ':' || c == '\n')) a) (t : Str) :
    fieldLine (a ++ ':' :: t) = .ok (((t.dropWhile isSpace).dropWhile fun c => !(c == '\r' || c == '\n')).dropWhile isMultispace)
      ⟨a, t.takeWhile isSpace, (t.dropWhile isSpace).takeWhile (fun c => !(c == '\r' || c == '\n')),
        ((t.dropWhile isSpace).dropWhile fun c => !(c == '\r' || c == '\n')).takeWhile isMultispace⟩ := by
  have h1 : (terminated (takeTill fun c => c == ':' || c == '\n') (char ':') : Parser Unit Str) (a ++ ':' :: t) = .ok t a := by
    unfold terminated takeTill
    rw [bind_ok (takeWhile_ok ha (by apply HeadNot.cons; decide))]
    simp [char, ret, Parser.bind]
  unfold fieldLine
  rw [bind_ok h1]
  rfl

/-- A text that ends with a line feed. -/
def EndsNL (p : Str) : Prop := p.getLast? = some '\n'

theorem EndsNL.of_append {a b : Str} (h : EndsNL (a ++ b)) (hb : b ≠ []) : EndsNL b := by
  unfold EndsNL at h ⊢
  rw [List.getLast?_append] at h
  cases e : b.getLast? with
  | none => exact absurd (List.getLast?_eq_none_iff.1 e) hb
  | some c => rw [e] at h; simpa using h

/-- The first line of a text that ends with a line feed. -/
theorem EndsNL.first {p : Str} (h : EndsNL p) : ∃ l q, p = l ++ '\n' :: q ∧ '\n' ∉ l := by
  induction p with
  | nil => simp [EndsNL] at h
  | cons c p ih =>
    by_cases hc : c = '\n'
    · exact ⟨[], p, by simp [hc], by simp⟩
    · cases p with
      | nil => simp [EndsNL] at h; exact absurd h hc
      | cons d p =>
        obtain ⟨l, q, e, hl⟩ := ih (by simpa [EndsNL] using h)
        exact ⟨c :: l, q, by rw [e]; rfl, by simp [hl, Ne.symm hc]⟩

theorem dropWhile_suffix {p : Char → Bool} (l : Str) : ∃ a, l = a ++ l.dropWhile p :=
  ⟨l.takeWhile p, (List.takeWhile_append_dropWhile).symm⟩

/-- One step over complete lines, whatever follows them. -/
theorem fieldLine_step {pre : Str} (h : EndsNL pre) :
    (∀ z, ∃ e, fieldLine (pre ++ z) = .error e) ∨
    ∃ n w x, (∃ g pre', EndsNL pre' ∧ pre'.length < pre.length ∧ ∀ z, fieldLine (pre ++ z) = .ok (pre' ++ z) ⟨n, w, x, g⟩) ∨
      (∃ g, EndsNL g ∧ ∀ z, fieldLine (pre ++ z) = .ok (z.dropWhile isMultispace) ⟨n, w, x, g ++ z.takeWhile isMultispace⟩) := by
  obtain ⟨l, q, rfl, hl⟩ := h.first
  by_cases hc : ':' ∈ l
  · right
    obtain ⟨a, b, rfl, ha⟩ := List.append_of_mem hc |>.elim fun a hb => hb.elim fun b e =>
      (show ∃ a b, l = a ++ ':' :: b ∧ ':' ∉ a from by
        clear hb
        have := List.eq_append_cons_of_mem hc
        obtain ⟨a, b, e, h⟩ := this
        exact ⟨a, b, e, h⟩)
    have ha' : AllC (fun c => !(c == ':' || c == '\n')) a := by
      intro c hc'
      have e1 : c ≠ ':' := by rintro rfl; exact ha hc'
      have e2 : c ≠ '\n' := by rintro rfl; exact hl (by simp [hc'])
      simp [e1, e2]
    have hb : '\n' ∉ b := fun hm => hl (by simp [hm])
    -- the text after the value
    let b1 := b.dropWhile isSpace
    let b2 := b1.dropWhile fun c => !(c == '\r' || c == '\n')
    have e : ∀ z, fieldLine ((a ++ ':' :: b) ++ '\n' :: q ++ z) = .ok ((b2 ++ '\n' :: (q ++ z)).dropWhile isMultispace)
        ⟨a, b.takeWhile isSpace, b1.takeWhile (fun c => !(c == '\r' || c == '\n')), (b2 ++ '\n' :: (q ++ z)).takeWhile isMultispace⟩ := by
      intro z
      have : (a ++ ':' :: b) ++ '\n' :: q ++ z = a ++ ':' :: (b ++ '\n' :: (q ++ z)) := by simp
      rw [this, fieldLine_colon ha', dropWhile_stop (by decide), takeWhile_stop (by decide), takeWhile_stop (by decide), dropWhile_stop (by decide)]
    refine ⟨a, b.takeWhile isSpace, b1.takeWhile (fun c => !(c == '\r' || c == '\n')), ?_⟩
    have e3 : ∀ z, b2 ++ '\n' :: (q ++ z) = (b2 ++ '\n' :: q) ++ z := by intro z; simp
    have hE : EndsNL (b2 ++ '\n' :: q) := by
      obtain ⟨u, hu⟩ := dropWhile_suffix (p := isSpace) b
      obtain ⟨u', hu'⟩ := dropWhile_suffix (p := fun c => !(c == '\r' || c == '\n')) b1
      have : (a ++ ':' :: b) ++ '\n' :: q = (a ++ ':' :: (u ++ u')) ++ (b2 ++ '\n' :: q) := by
        show (a ++ ':' :: b) ++ '\n' :: q = (a ++ ':' :: (u ++ u')) ++ (b1.dropWhile _ ++ '\n' :: q)
        have : b = u ++ (u' ++ b1.dropWhile fun c => !(c == '\r' || c == '\n')) := by rw [← hu']; exact hu
        conv => lhs; rw [this]
        simp
      rw [this] at h
      exact h.of_append (by simp)
    by_cases hall : (b2 ++ '\n' :: q).dropWhile isMultispace = []
    · right
      refine ⟨b2 ++ '\n' :: q, hE, fun z => ?_⟩
      rw [e z, e3 z, List.dropWhile_append, if_pos (by simp [hall]), List.takeWhile_append, if_pos]
      · have := List.takeWhile_append_dropWhile (p := isMultispace) (l := b2 ++ '\n' :: q)
        rw [hall, List.append_nil] at this
        rw [this]
    · left
      refine ⟨(b2 ++ '\n' :: q).takeWhile isMultispace, (b2 ++ '\n' :: q).dropWhile isMultispace, ?_, ?_, fun z => ?_⟩
      · have := List.takeWhile_append_dropWhile (p := isMultispace) (l := b2 ++ '\n' :: q)
        rw [← this] at hE
        exact hE.of_append hall
      · have h1 := (List.dropWhile_suffix (p := isMultispace) (l := b2 ++ '\n' :: q)).length_le
        have h2 : b2.length ≤ b.length := by
          have h3 := (List.dropWhile_suffix (p := fun c => !(c == '\r' || c == '\n')) (l := b1)).length_le
          have h4 := (List.dropWhile_suffix (p := isSpace) (l := b)).length_le
          exact Nat.le_trans h3 h4
        simp only [List.length_append, List.length_cons] at h1 ⊢
        omega
      · rw [e z, e3 z, List.dropWhile_append, if_neg (by simpa using hall), List.takeWhile_append, if_neg]
        intro hlen
        apply hall
        have := List.takeWhile_append_dropWhile (p := isMultispace) (l := b2 ++ '\n' :: q)
        have hl2 := congrArg List.length this
        rw [List.length_append, hlen] at hl2
        exact List.length_eq_zero_iff.1 (by omega)
  · left
    intro z
    refine fieldLine_error (b := l) (t := '\n' :: (q ++ z)) ?_ ?_ (by simp)
    · intro c hc'
      have e1 : c ≠ ':' := by rintro rfl; exact hc hc'
      have e2 : c ≠ '\n' := by rintro rfl; exact hl hc'
      simp [e1, e2]
    · exact .cons (by decide)

/-- A line without the blanks after the colon. -/
def FieldLine.bare (f : FieldLine) : Str × Str × Str := (f.name, f.value, f.ws2)

theorem Schema.run_bare (S : Schema) (v : Nat) : ∀ (fs fs' : List FieldLine) (line : Nat) (seen : List Str) (sec : S.Section),
    fs.map FieldLine.bare = fs'.map FieldLine.bare → S.run v fs line seen sec = S.run v fs' line seen sec := by
  intro fs
  induction fs with
  | nil => intro fs' line seen sec h; cases fs' with
    | nil => rfl
    | cons => cases h
  | cons f fs ih =>
    intro fs' line seen sec h
    cases fs' with
    | nil => cases h
    | cons f' fs' =>
      simp only [List.map_cons, List.cons.injEq, FieldLine.bare, Prod.mk.injEq] at h
      obtain ⟨⟨h1, h2, h3⟩, h4⟩ := h
      unfold Schema.run
      rw [h1, h2, h3]
      split
      · rfl
      · split
        · rfl
        · split
          · rfl
          · rfl
          · exact ih _ _ _ _ h4

theorem many0_cons {s r : Str} {f : FieldLine} {r' : Str} {fs : List FieldLine} (h : fieldLine s = .ok r f)
    (hl : r.length < s.length) (h' : getColonFieldValueLines r = .ok r' fs) :
    getColonFieldValueLines s = .ok r' (f :: fs) := many0_iff.2 (.inr ⟨r, f, fs, h, hl, h', rfl⟩)

theorem many0_stop {s : Str} {e : VErr Unit} (h : fieldLine s = .error e) : getColonFieldValueLines s = .ok s [] :=
  many0_iff.2 (.inl ⟨e, h, rfl, rfl⟩)

theorem dropWhile_le {p : Char → Bool} (l : Str) : (l.dropWhile p).length ≤ l.length :=
  (List.dropWhile_suffix (p := p) (l := l)).length_le

theorem dropWhile_spaces {p q : Char → Bool} {ws : Str} (h : AllC p ws) (hpq : ∀ c, p c = true → q c = true) (t : Str) :
    (ws ++ t).dropWhile q = t.dropWhile q := by
  induction ws with
  | nil => rfl
  | cons c ws ih =>
    have := hpq c (h c (by simp))
    simp only [List.cons_append, List.dropWhile_cons, this, if_true]
    exact ih fun d hd => h d (by simp [hd])

/-- The lines read from two texts that differ in blanks after a colon. -/
theorem getFields_afterColon {ws : Str} (hw : AllC isSpace ws) (t : Str) : ∀ (n : Nat) (pre key : Str), pre.length ≤ n →
    (pre = [] ∨ EndsNL pre) → AllC (fun c => !(c == ':' || c == '\n')) key →
    ∃ r r' fs fs', getColonFieldValueLines (pre ++ (key ++ ':' :: (ws ++ t))) = .ok r fs ∧
      getColonFieldValueLines (pre ++ (key ++ ':' :: t)) = .ok r' fs' ∧ fs.map FieldLine.bare = fs'.map FieldLine.bare ∧
      (r = r' ∨ (':' ∈ r ∧ ':' ∈ r')) := by
  intro n
  induction n with
  | zero =>
    intro pre key hn _ hk
    cases pre with
    | cons => simp at hn
    | nil =>
      have h1 := fieldLine_colon hk (ws ++ t)
      have h2 := fieldLine_colon hk t
      rw [dropWhile_spaces hw (fun _ h => h)] at h1
      obtain ⟨r, fs, h3, -⟩ := getFields_ok (((t.dropWhile isSpace).dropWhile fun c => !(c == '\r' || c == '\n')).dropWhile isMultispace)
      have hl : (((t.dropWhile isSpace).dropWhile fun c => !(c == '\r' || c == '\n')).dropWhile isMultispace).length ≤ t.length :=
        Nat.le_trans (dropWhile_le _) (Nat.le_trans (dropWhile_le _) (dropWhile_le _))
      refine ⟨r, r, _, _, many0_cons h1 ?_ h3, many0_cons h2 ?_ h3, rfl, .inl rfl⟩ <;>
        simp only [List.nil_append, List.length_append, List.length_cons] <;> omega
  | succ n ih =>
    intro pre key hn hpre hk
    rcases hpre with rfl | hpre
    · exact ih [] key (by simp) (.inl rfl) hk
    rcases fieldLine_step hpre with h | ⟨nm, w, x, ⟨g, pre', hE, hl, h⟩ | ⟨g, hg, h⟩⟩
    · obtain ⟨e, h1⟩ := h (key ++ ':' :: (ws ++ t))
      obtain ⟨e', h2⟩ := h (key ++ ':' :: t)
      exact ⟨_, _, _, _, many0_stop h1, many0_stop h2, rfl, .inr ⟨by simp, by simp⟩⟩
    · obtain ⟨r, r', fs, fs', h1, h2, h3, h4⟩ := ih pre' key (by omega) (.inr hE) hk
      refine ⟨r, r', _, _, many0_cons (h _) ?_ h1, many0_cons (h _) ?_ h2, by simp [h3], h4⟩ <;> simp <;> omega
    · have hk' : AllC (fun c => !(c == ':' || c == '\n')) (key.dropWhile isMultispace) := fun c hc =>
        hk c ((List.dropWhile_suffix (p := isMultispace) (l := key)).subset hc)
      obtain ⟨r, r', fs, fs', h1, h2, h3, h4⟩ := ih [] (key.dropWhile isMultispace) (by simp) (.inl rfl) hk'
      have e1 := h (key ++ ':' :: (ws ++ t))
      have e2 := h (key ++ ':' :: t)
      rw [dropWhile_stop (by decide), takeWhile_stop (by decide)] at e1 e2
      have hp : 0 < pre.length := by
        cases pre with
        | nil => simp [EndsNL] at hpre
        | cons => simp
      have := dropWhile_le (p := isMultispace) key
      refine ⟨r, r', _, _, many0_cons e1 ?_ h1, many0_cons e2 ?_ h2, by simp [h3, FieldLine.bare], h4⟩ <;> simp <;> omega

theorem trim_colon {r : Str} (h : ':' ∈ r) : trim r ≠ [] := by
  rw [Ne, trim_eq_nil]
  intro hb
  have := hb ':' h
  exact absurd this (by decide)

/-- A line without blanks after the colon and without the lines after it. -/
def FieldLine.kept (f : FieldLine) : Str × Str := (f.name, f.value)

/-- The result without the line of an error. -/
def noLine {E α : Type} : Res (LErr E) α → Res E α
  | .ok a => .ok a
  | .err e => .err e.error
  | .panic => .panic

theorem Schema.run_kept (S : Schema) (v : Nat) : ∀ (fs fs' : List FieldLine) (line line' : Nat) (seen : List Str) (sec : S.Section),
    fs.map FieldLine.kept = fs'.map FieldLine.kept → noLine (S.run v fs line seen sec) = noLine (S.run v fs' line' seen sec) := by
  intro fs
  induction fs with
  | nil => intro fs' line line' seen sec h; cases fs' with
    | nil => rfl
    | cons => cases h
  | cons f fs ih =>
    intro fs' line line' seen sec h
    cases fs' with
    | nil => cases h
    | cons f' fs' =>
      simp only [List.map_cons, List.cons.injEq, FieldLine.kept, Prod.mk.injEq] at h
      obtain ⟨⟨h1, h2⟩, h4⟩ := h
      unfold Schema.run
      rw [h1, h2]
      split
      · rfl
      · split
        · rfl
        · split
          · rfl
          · rfl
          · exact ih _ _ _ _ _ h4

/-- The lines read from two texts that differ in white space at the start of a line that is not the first. -/
theorem getFields_gap {ws : Str} (hw : AllC isMultispace ws) (z : Str) : ∀ (n : Nat) (pre : Str), pre.length ≤ n → EndsNL pre →
    ∃ r r' fs fs', getColonFieldValueLines (pre ++ (ws ++ z)) = .ok r fs ∧
      getColonFieldValueLines (pre ++ z) = .ok r' fs' ∧ fs.map FieldLine.kept = fs'.map FieldLine.kept ∧
      (AllC isWs r ↔ AllC isWs r') := by
  intro n
  induction n with
  | zero =>
    intro pre hn hpre
    cases pre with
    | cons => simp at hn
    | nil => simp [EndsNL] at hpre
  | succ n ih =>
    intro pre hn hpre
    have hp : 0 < pre.length := by
      cases pre with
      | nil => simp [EndsNL] at hpre
      | cons => simp
    rcases fieldLine_step hpre with h | ⟨nm, w, x, ⟨g, pre', hE, hl, h⟩ | ⟨g, hg, h⟩⟩
    · obtain ⟨e, h1⟩ := h (ws ++ z)
      obtain ⟨e', h2⟩ := h z
      refine ⟨_, _, _, _, many0_stop h1, many0_stop h2, rfl, ?_⟩
      have hws : ∀ c ∈ ws, isWs c = true := fun c hc => by
        have := hw c hc
        simp only [isMultispace, Bool.or_eq_true, beq_iff_eq] at this
        rcases this with ((rfl | rfl) | rfl) | rfl <;> decide
      constructor
      · intro hb c hc
        refine hb c ?_
        simp only [List.mem_append] at hc ⊢
        rcases hc with hc | hc
        · exact .inl hc
        · exact .inr (.inr hc)
      · intro hb c hc
        simp only [List.mem_append] at hc
        rcases hc with hc | hc | hc
        · exact hb c (by simp [hc])
        · exact hws c hc
        · exact hb c (by simp [hc])
    · obtain ⟨r, r', fs, fs', h1, h2, h3, h4⟩ := ih pre' (by omega) hE
      refine ⟨r, r', _, _, many0_cons (h _) ?_ h1, many0_cons (h _) ?_ h2, by simp [h3], h4⟩ <;> simp <;> omega
    · obtain ⟨r, fs, h3, -⟩ := getFields_ok (z.dropWhile isMultispace)
      have e1 := h (ws ++ z)
      have e2 := h z
      rw [dropWhile_spaces hw (fun _ h => h)] at e1
      have := dropWhile_le (p := isMultispace) z
      refine ⟨r, r, _, _, many0_cons e1 ?_ h3, many0_cons e2 ?_ h3, rfl, .rfl⟩ <;> simp <;> omega

end Osu
