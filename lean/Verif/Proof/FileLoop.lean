/-
The loop over the sections of a beatmap file.
-/
import Verif.Proof.SectionSplit

namespace Osu
open Parser Ev

theorem splitNL_length (s : Str) : (splitNL s).length = s.count '\n' + 1 := by
  induction s with
  | nil => rfl
  | cons c s ih =>
    rw [splitNL]
    by_cases h : c = '\n'
    · subst h; simp [ih]
    · rw [if_neg h, List.count_cons_of_ne (fun e => h e)]
      cases hs : splitNL s with
      | nil => exact absurd hs (splitNL_ne_nil s)
      | cons l ls => rw [hs] at ih; simpa using ih

theorem linesOf_length : ∀ (ls : List Str), ls ≠ [] →
    (linesOf ls).length + (if ls.getLast? = some [] then 1 else 0) = ls.length
  | [], h => absurd rfl h
  | [l], _ => by by_cases h : l = [] <;> simp [linesOf, h]
  | l :: l' :: ls, _ => by
    have ih := linesOf_length (l' :: ls) (by simp)
    rw [linesOf, List.getLast?_cons_cons]
    simp only [List.length_cons] at *
    omega

theorem splitNL_getLast (s : Str) : (splitNL s).getLast? = some [] ↔ s = [] ∨ s.getLast? = some '\n' := by
  induction s with
  | nil => simp [splitNL]
  | cons c s ih =>
    rw [splitNL]
    have hne := splitNL_ne_nil s
    by_cases h : c = '\n'
    · subst h
      rw [if_pos rfl]
      cases hs : splitNL s with
      | nil => exact absurd hs hne
      | cons l ls =>
        rw [List.getLast?_cons_cons, ← hs, ih]
        cases s with
        | nil => simp
        | cons d s => simp
    · rw [if_neg h]
      cases hs : splitNL s with
      | nil => exact absurd hs hne
      | cons l ls =>
        rw [hs] at ih
        cases ls with
        | nil =>
          cases s with
          | nil => simp [h]
          | cons d s =>
            simp only [List.getLast?_singleton, Option.some.injEq, reduceCtorEq, false_or] at ih
            simp only [List.getLast?_singleton, Option.some.injEq, reduceCtorEq, false_or, List.getLast?_cons_cons, false_iff]
            intro hc
            have := ih.2 hc
            subst this
            have h0 := splitNL_length (d :: s)
            rw [hs] at h0
            have : '\n' ∈ d :: s := List.mem_of_getLast? hc
            have := List.count_pos_iff.2 this
            simp only [List.length_cons, List.length_nil] at h0
            omega
        | cons l' ls =>
          rw [List.getLast?_cons_cons] at ih ⊢
          rw [ih]
          cases s with
          | nil => simp [splitNL] at hs
          | cons d s => simp

/-- The number of lines of a text. -/
theorem lines_length (s : Str) : (lines s).length + (if s = [] ∨ s.getLast? = some '\n' then 1 else 0) = s.count '\n' + 1 := by
  have h := linesOf_length (splitNL s) (splitNL_ne_nil s)
  rw [splitNL_length] at h
  simp only [splitNL_getLast] at h
  exact h

theorem lines_len_zero {s : Str} : (lines s).length = 0 ↔ s = [] := by
  constructor
  · intro h
    have h' := lines_length s
    rw [h] at h'
    by_cases hs : s = []
    · exact hs
    · split at h'
      · rename_i hl
        have : '\n' ∈ s := List.mem_of_getLast? (hl.resolve_left hs)
        have := List.count_pos_iff.2 this
        omega
      · omega
  · rintro rfl; rfl

section
variable {D : Type} [DecLib D] [UniLib]

/-- The two files agree on a section. -/
def SameField (f g : OsuFile D) : SName → Prop
  | .general => f.general = g.general
  | .editor => f.editor = g.editor
  | .metadata => f.metadata = g.metadata
  | .difficulty => f.difficulty = g.difficulty
  | .events => f.events = g.events
  | .timingPoints => f.timingPoints = g.timingPoints
  | .colours => f.colours = g.colours
  | .hitobjects => f.hitobjects = g.hitobjects

theorem SName.text_inj {n m : SName} (h : n.text = m.text) : n = m := by
  cases n <;> cases m <;> first | rfl | (exact absurd h (by decide))

theorem handle_none {v : Nat} {f : OsuFile D} {name body : Str} {line : Nat} :
    OsuFile.handle v f name body line = none ↔ ∀ n : SName, n.text ≠ name := by
  unfold OsuFile.handle
  constructor
  · intro h n e
    subst e
    cases n <;> simp [SName.text] at h
  · intro h
    rw [if_neg (fun e => h .general e.symm), if_neg (fun e => h .editor e.symm), if_neg (fun e => h .metadata e.symm),
      if_neg (fun e => h .difficulty e.symm), if_neg (fun e => h .events e.symm), if_neg (fun e => h .timingPoints e.symm),
      if_neg (fun e => h .colours e.symm), if_neg (fun e => h .hitobjects e.symm)]

theorem processingLine_ok {E E2 α β : Type} {into : E → E2} {r : Res (LErr E) α} {k : Nat} {g : α → β} {b : β} :
    (processingLine into r k >>= fun x => .ok (g x)) = .ok b ↔ ∃ a, r = .ok a ∧ g a = b := by
  cases r with
  | ok a =>
    show Res.ok (g a) = Res.ok b ↔ _
    simp
  | err e =>
    show (Res.err _ : Res _ β) = _ ↔ _
    simp
  | panic =>
    show (Res.panic : Res _ β) = _ ↔ _
    simp

theorem processingLine_err {E E2 α β : Type} {into : E → E2} {r : Res (LErr E) α} {k : Nat} {g : α → β} {e : LErr E2} :
    (processingLine into r k >>= fun x => .ok (g x)) = .err e ↔
      ∃ e', (processingLine into r 0 >>= fun _ => .ok () : Res (LErr E2) Unit) = .err e' ∧ e = ⟨e'.line + k, e'.error⟩ := by
  cases r with
  | ok a =>
    show Res.ok (g a) = Res.err _ ↔ ∃ e', (Res.ok () : Res _ Unit) = .err e' ∧ _
    simp
  | err e0 =>
    show (Res.err ⟨e0.line + k, into e0.error⟩ : Res (LErr E2) β) = _ ↔
      ∃ e', (Res.err ⟨e0.line + 0, into e0.error⟩ : Res (LErr E2) Unit) = .err e' ∧ _
    simp [eq_comm]
  | panic =>
    show (Res.panic : Res _ β) = _ ↔ ∃ e', (Res.panic : Res _ Unit) = .err e' ∧ _
    simp

theorem processingLine_panic {E E2 α β : Type} {into : E → E2} {r : Res (LErr E) α} {k : Nat} {g : α → β} :
    (processingLine into r k >>= fun x => .ok (g x)) = .panic ↔
      (processingLine into r 0 >>= fun _ => .ok () : Res (LErr E2) Unit) = .panic := by
  cases r <;> (show (_ : Res _ β) = _ ↔ (_ : Res _ Unit) = _; constructor <;> intro h <;> first | rfl | cases h)

theorem handle_name (v : Nat) (f : OsuFile D) (n : SName) (body : Str) (line : Nat) :
    ∃ r, OsuFile.handle v f n.text body line = some r ∧
      (∀ f', r = .ok f' ↔ SectReads v f' body n ∧ (∀ m, m ≠ n → SameField f' f m) ∧ f'.version = f.version ∧ f'.osb = f.osb) ∧
      (∀ e, r = .err e ↔ ∃ e', n.outcome D v body = .err e' ∧ e = ⟨e'.line + line, e'.error⟩) ∧
      (r = .panic ↔ n.outcome D v body = .panic) := by
  obtain ⟨v0, f1, f2, f3, f4, f5, f6, f7, f8, f9⟩ := f
  cases n
  all_goals
    refine ⟨_, rfl, ?_, fun e => processingLine_err, processingLine_panic⟩
    intro f'
    refine processingLine_ok.trans ?_
    obtain ⟨v0', f1', f2', f3', f4', f5', f6', f7', f8', f9'⟩ := f'
    constructor
    · rintro ⟨a, h, e⟩
      cases e
      refine ⟨⟨_, h, rfl⟩, ?_, rfl, rfl⟩
      intro m hm
      cases m <;> first | rfl | exact absurd rfl hm
    · rintro ⟨⟨a, h, e⟩, hm, e1, e2⟩
      refine ⟨a, h, ?_⟩
      have h1 := hm .general
      have h2 := hm .editor
      have h3 := hm .metadata
      have h4 := hm .difficulty
      have h5 := hm .events
      have h6 := hm .timingPoints
      have h7 := hm .colours
      have h8 := hm .hitobjects
      simp only [ne_eq, reduceCtorEq, not_false_eq_true, not_true_eq_false, forall_const, SameField, false_implies] at h1 h2 h3 h4 h5 h6 h7 h8 e e1 e2
      simp_all

theorem SameField.refl (f : OsuFile D) (n : SName) : SameField f f n := by cases n <;> rfl
theorem SameField.symm {f g : OsuFile D} {n : SName} (h : SameField f g n) : SameField g f n := by
  cases n <;> exact Eq.symm h
theorem SameField.trans {f g k : OsuFile D} {n : SName} (h : SameField f g n) (h' : SameField g k n) : SameField f k n := by
  cases n <;> exact Eq.trans h h'

theorem SectReads.same {v : Nat} {f g : OsuFile D} {body : Str} {n : SName} (h : SectReads v f body n) (hs : SameField g f n) :
    SectReads v g body n := by
  cases n <;> (obtain ⟨x, h1, h2⟩ := h; exact ⟨x, h1, Eq.trans hs h2⟩)

theorem SectReads.unique {v : Nat} {f g : OsuFile D} {body : Str} {n : SName} (h : SectReads v f body n) (h' : SectReads v g body n) :
    SameField f g n := by
  cases n <;> (obtain ⟨x, h1, h2⟩ := h; obtain ⟨y, h3, h4⟩ := h'; rw [h1] at h3; cases h3; exact Eq.trans h2 h4.symm)

theorem SectAbsent.unique {f g : OsuFile D} {n : SName} (h : SectAbsent f n) (h' : SectAbsent g n) :
    SameField f g n := by
  cases n <;> exact Eq.trans h (Eq.symm h')

theorem sectAbsent_new {v : Nat} {f : OsuFile D} {n : SName} : SectAbsent f n ↔ SameField f (OsuFile.new v) n := by
  cases n <;> exact Iff.rfl

theorem setField (f st : OsuFile D) (n : SName) : ∃ st', SameField st' f n ∧ (∀ m, m ≠ n → SameField st' st m) ∧
    st'.version = st.version ∧ st'.osb = st.osb := by
  cases n
  case general => exact ⟨{ st with general := f.general }, rfl, fun m hm => by cases m <;> first | rfl | exact absurd rfl hm, rfl, rfl⟩
  case editor => exact ⟨{ st with editor := f.editor }, rfl, fun m hm => by cases m <;> first | rfl | exact absurd rfl hm, rfl, rfl⟩
  case metadata => exact ⟨{ st with metadata := f.metadata }, rfl, fun m hm => by cases m <;> first | rfl | exact absurd rfl hm, rfl, rfl⟩
  case difficulty => exact ⟨{ st with difficulty := f.difficulty }, rfl, fun m hm => by cases m <;> first | rfl | exact absurd rfl hm, rfl, rfl⟩
  case events => exact ⟨{ st with events := f.events }, rfl, fun m hm => by cases m <;> first | rfl | exact absurd rfl hm, rfl, rfl⟩
  case timingPoints => exact ⟨{ st with timingPoints := f.timingPoints }, rfl, fun m hm => by cases m <;> first | rfl | exact absurd rfl hm, rfl, rfl⟩
  case colours => exact ⟨{ st with colours := f.colours }, rfl, fun m hm => by cases m <;> first | rfl | exact absurd rfl hm, rfl, rfl⟩
  case hitobjects => exact ⟨{ st with hitobjects := f.hitobjects }, rfl, fun m hm => by cases m <;> first | rfl | exact absurd rfl hm, rfl, rfl⟩

theorem OsuFile.ext_fields {f g : OsuFile D} (h : ∀ n, SameField f g n) (hv : f.version = g.version) (ho : f.osb = g.osb) :
    f = g := by
  have h1 := h .general
  have h2 := h .editor
  have h3 := h .metadata
  have h4 := h .difficulty
  have h5 := h .events
  have h6 := h .timingPoints
  have h7 := h .colours
  have h8 := h .hitobjects
  cases f; cases g
  simp only [SameField] at *
  simp_all

/-- Reading succeeds exactly when the outcome without the value does. -/
theorem sectReads_outcome {v : Nat} {body : Str} {n : SName} :
    (∃ f : OsuFile D, SectReads v f body n) ↔ n.outcome D v body = .ok () := by
  cases n
  case general => exact ⟨fun ⟨f, x, h, _⟩ => processingLine_ok.2 ⟨x, h, rfl⟩, fun h => by
    obtain ⟨x, h, -⟩ := processingLine_ok.1 h; exact ⟨{ OsuFile.new v with general := some x }, x, h, rfl⟩⟩
  case editor => exact ⟨fun ⟨f, x, h, _⟩ => processingLine_ok.2 ⟨x, h, rfl⟩, fun h => by
    obtain ⟨x, h, -⟩ := processingLine_ok.1 h; exact ⟨{ OsuFile.new v with editor := some x }, x, h, rfl⟩⟩
  case metadata => exact ⟨fun ⟨f, x, h, _⟩ => processingLine_ok.2 ⟨x, h, rfl⟩, fun h => by
    obtain ⟨x, h, -⟩ := processingLine_ok.1 h; exact ⟨{ OsuFile.new v with metadata := some x }, x, h, rfl⟩⟩
  case difficulty => exact ⟨fun ⟨f, x, h, _⟩ => processingLine_ok.2 ⟨x, h, rfl⟩, fun h => by
    obtain ⟨x, h, -⟩ := processingLine_ok.1 h; exact ⟨{ OsuFile.new v with difficulty := some x }, x, h, rfl⟩⟩
  case events => exact ⟨fun ⟨f, x, h, _⟩ => processingLine_ok.2 ⟨x, h, rfl⟩, fun h => by
    obtain ⟨x, h, -⟩ := processingLine_ok.1 h; exact ⟨{ OsuFile.new v with events := some x }, x, h, rfl⟩⟩
  case timingPoints => exact ⟨fun ⟨f, x, h, _⟩ => processingLine_ok.2 ⟨x, h, rfl⟩, fun h => by
    obtain ⟨x, h, -⟩ := processingLine_ok.1 h; exact ⟨{ OsuFile.new v with timingPoints := some x }, x, h, rfl⟩⟩
  case colours => exact ⟨fun ⟨f, x, h, _⟩ => processingLine_ok.2 ⟨x, h, rfl⟩, fun h => by
    obtain ⟨x, h, -⟩ := processingLine_ok.1 h; exact ⟨{ OsuFile.new v with colours := x }, x, h, rfl⟩⟩
  case hitobjects => exact ⟨fun ⟨f, x, h, _⟩ => processingLine_ok.2 ⟨x, h, rfl⟩, fun h => by
    obtain ⟨x, h, -⟩ := processingLine_ok.1 h; exact ⟨{ OsuFile.new v with hitobjects := some x }, x, h, rfl⟩⟩

/-- The loop of `OsuFile::from_str`. -/
abbrev fileLoop (v : Nat) (xs : List Sect) (line : Nat) (seen : List Str) (st : OsuFile D) : Res (LErr FileErr) (OsuFile D) :=
  sectionLoop .duplicateSections .unknownSection (OsuFile.handle v) (fun line n => if n = 0 then none else some (line + (n - 1)))
    xs line seen st

theorem fileLoop_ok {v : Nat} {xs : List Sect} {line : Nat} {seen : List Str} {st f : OsuFile D} :
    fileLoop v xs line seen st = .ok f ↔ f.version = st.version ∧ f.osb = st.osb ∧ (xs.map Sect.name).Nodup ∧
      (∀ x ∈ xs, x.name ∉ seen) ∧
      (∀ x ∈ xs, x.body ≠ [] ∧ ∃ n : SName, n.text = x.name ∧ SectReads v f x.body n) ∧
      ∀ n : SName, n.text ∉ xs.map Sect.name → SameField f st n := by
  induction xs generalizing line seen st with
  | nil =>
    rw [fileLoop, sectionLoop]
    constructor
    · intro h; cases h; simp [SameField.refl]
    · rintro ⟨h1, h2, -, -, -, h3⟩
      rw [OsuFile.ext_fields (fun n => (h3 n (by simp)).symm) h1.symm h2.symm]
  | cons x xs ih =>
    rw [fileLoop, sectionLoop]
    by_cases hx : x.name ∈ seen
    · simp only [if_pos hx, reduceCtorEq, false_iff]
      rintro ⟨-, -, -, h, -⟩
      exact h x (by simp) hx
    · simp only [if_neg hx]
      by_cases hn : ∃ n : SName, n.text = x.name
      · obtain ⟨n, hn⟩ := hn
        rw [← hn]
        obtain ⟨r, h0, h1, h2, h3⟩ := handle_name v st n x.body (line + (lines x.ws).length + (lines x.ws2).length)
        rw [h0]
        have hnofail : (∀ f', r ≠ .ok f') → ¬ ∃ f : OsuFile D, SectReads v f x.body n := by
          rintro hr ⟨g, hg⟩
          obtain ⟨st', a1, a2, a3, a4⟩ := setField g st n
          exact hr st' ((h1 st').2 ⟨hg.same a1, a2, a3, a4⟩)
        have key : ∀ (P Q : Prop), (¬ ∃ f : OsuFile D, SectReads v f x.body n) →
            ¬ (∀ y ∈ x :: xs, y.body ≠ [] ∧ ∃ n : SName, n.text = y.name ∧ SectReads v f y.body n) := by
          intro P Q hno hall
          obtain ⟨-, m, hm, hr⟩ := hall x (by simp)
          rw [← hn] at hm
          rw [SName.text_inj hm] at hr
          exact hno ⟨f, hr⟩
        cases r with
        | err e =>
          simp only [reduceCtorEq, false_iff]
          rintro ⟨-, -, -, -, h, -⟩
          exact key True True (hnofail (by simp)) h
        | panic =>
          simp only [reduceCtorEq, false_iff]
          rintro ⟨-, -, -, -, h, -⟩
          exact key True True (hnofail (by simp)) h
        | ok st' =>
          obtain ⟨b1, b2, b3, b4⟩ := (h1 st').1 rfl
          simp only
          by_cases hb : x.body = []
          · rw [if_pos (lines_len_zero.2 hb)]
            simp only [reduceCtorEq, false_iff]
            rintro ⟨-, -, -, -, h, -⟩
            exact (h x (by simp)).1 hb
          · rw [if_neg (fun h => hb (lines_len_zero.1 h))]
            simp only
            refine ih.trans ?_
            constructor
            · rintro ⟨c1, c2, c3, c4, c5, c6⟩
              have hnot : x.name ∉ xs.map Sect.name := by
                intro hm
                obtain ⟨y, hy, e⟩ := List.mem_map.1 hm
                exact c4 y hy (by simp [e, hn])
              refine ⟨c1.trans b3, c2.trans b4, List.nodup_cons.2 ⟨hnot, c3⟩, ?_, ?_, ?_⟩
              · intro y hy
                rcases List.mem_cons.1 hy with rfl | hy
                · exact hx
                · intro hm; exact c4 y hy (by simp [hm])
              · intro y hy
                rcases List.mem_cons.1 hy with rfl | hy
                · exact ⟨hb, n, hn, b1.same (c6 n (by rwa [hn]))⟩
                · exact c5 y hy
              · intro m hm
                simp only [List.map_cons, List.mem_cons, not_or] at hm
                exact (c6 m hm.2).trans (b2 m (fun e => hm.1 (by rw [e, hn])))
            · rintro ⟨c1, c2, c3, c4, c5, c6⟩
              obtain ⟨hnot, c3⟩ := List.nodup_cons.1 c3
              refine ⟨c1.trans b3.symm, c2.trans b4.symm, c3, ?_, fun y hy => c5 y (by simp [hy]), ?_⟩
              · intro y hy hm
                rcases List.mem_append.1 hm with hm | hm
                · exact c4 y (by simp [hy]) hm
                · rw [List.mem_singleton, hn] at hm
                  exact hnot (hm ▸ List.mem_map_of_mem hy)
              · intro m hm
                by_cases hmn : m = n
                · subst hmn
                  obtain ⟨-, k, hk, hr⟩ := c5 x (by simp)
                  rw [← hn] at hk
                  rw [SName.text_inj hk] at hr
                  exact hr.unique b1
                · refine (c6 m ?_).trans (b2 m hmn).symm
                  simp only [List.map_cons, List.mem_cons, not_or]
                  exact ⟨fun e => hmn (SName.text_inj (e.trans hn.symm)), hm⟩
      · have h0 : OsuFile.handle v st x.name x.body (line + (lines x.ws).length + (lines x.ws2).length) = none :=
          handle_none.2 fun n e => hn ⟨n, e⟩
        rw [h0]
        simp only [reduceCtorEq, false_iff]
        rintro ⟨-, -, -, -, h, -⟩
        obtain ⟨-, m, hm, -⟩ := h x (by simp)
        exact hn ⟨m, hm⟩

theorem allRead_nil (v : Nat) : AllRead D v [] := ⟨.nil, fun _ h => by cases h⟩

theorem allRead_cons {v : Nat} {x : Sect} {xs : List Sect} : AllRead D v (x :: xs) ↔
    x.name ∉ xs.map Sect.name ∧ (x.body ≠ [] ∧ ∃ n : SName, n.text = x.name ∧ n.outcome D v x.body = .ok ()) ∧ AllRead D v xs := by
  unfold AllRead
  simp only [List.map_cons, List.nodup_cons, List.mem_cons, forall_eq_or_imp]
  constructor
  · rintro ⟨⟨a, b⟩, c, d⟩; exact ⟨a, c, b, d⟩
  · rintro ⟨a, c, b, d⟩; exact ⟨⟨a, b⟩, c, d⟩

theorem nameLine_cons (line : Nat) (x y : Sect) (pre : List Sect) :
    nameLine line (x :: pre) y = nameLine (line + x.counted) pre y := by
  simp only [nameLine, List.map_cons, List.sum_cons]; omega

theorem bodyLine_cons (line : Nat) (x y : Sect) (pre : List Sect) :
    bodyLine line (x :: pre) y = bodyLine (line + x.counted) pre y := by
  simp only [bodyLine, nameLine_cons]

theorem fileLoop_stops {v : Nat} {xs : List Sect} {line : Nat} {seen : List Str} {st : OsuFile D}
    {o : Res (LErr FileErr) (OsuFile D)} (ho : o.isOk = false) :
    fileLoop v xs line seen st = o ↔ ∃ pre x post, xs = pre ++ x :: post ∧ AllRead D v pre ∧ (∀ y ∈ pre, y.name ∉ seen) ∧
      StopsAt D v (nameLine line pre x) (bodyLine line pre x) (seen ++ pre.map Sect.name) x o := by
  induction xs generalizing line seen st with
  | nil =>
    rw [fileLoop, sectionLoop]
    constructor
    · intro h; rw [← h] at ho; cases ho
    · rintro ⟨pre, x, post, h, -⟩; simp at h
  | cons x xs ih =>
    rw [fileLoop, sectionLoop]
    -- the loop either stops here or goes on
    have split : ∀ (P : List Sect → Sect → Prop), (∃ pre y post, x :: xs = pre ++ y :: post ∧ P pre y) ↔
        P [] x ∨ ∃ pre y post, xs = pre ++ y :: post ∧ P (x :: pre) y := by
      intro P
      constructor
      · rintro ⟨pre, y, post, e, h⟩
        cases pre with
        | nil => simp only [List.nil_append, List.cons.injEq] at e; obtain ⟨rfl, rfl⟩ := e; exact .inl h
        | cons z pre =>
          simp only [List.cons_append, List.cons.injEq] at e
          obtain ⟨rfl, rfl⟩ := e
          exact .inr ⟨pre, y, post, rfl, h⟩
      · rintro (h | ⟨pre, y, post, e, h⟩)
        · exact ⟨[], x, xs, rfl, h⟩
        · exact ⟨x :: pre, y, post, by rw [e]; rfl, h⟩
    rw [split]
    simp only [allRead_nil, allRead_cons, List.not_mem_nil, false_implies, implies_true, true_and, List.map_nil, List.append_nil,
      List.map_cons, nameLine_cons, bodyLine_cons, List.mem_cons, forall_eq_or_imp]
    have hnl : nameLine line [] x = line + (lines x.ws).length := by simp [nameLine]
    have hbl : bodyLine line [] x = line + (lines x.ws).length + (lines x.ws2).length := by simp [bodyLine, nameLine]
    rw [hnl, hbl]
    by_cases hx : x.name ∈ seen
    · simp only [if_pos hx]
      constructor
      · intro h; exact .inl (.inl ⟨hx, h.symm⟩)
      · rintro (h | ⟨pre, y, post, -, -, ⟨h, -⟩, -⟩)
        · rcases h with ⟨-, h⟩ | ⟨h, -⟩ | ⟨h, -⟩
          · exact h.symm
          · exact absurd hx h
          · exact absurd hx h
        · exact absurd hx h
    · simp only [if_neg hx]
      by_cases hn : ∃ n : SName, n.text = x.name
      · obtain ⟨n, hn⟩ := hn
        have hout : ∀ {r}, (∃ m : SName, m.text = x.name ∧ m.outcome D v x.body = r) → n.outcome D v x.body = r := by
          rintro r ⟨m, hm, hr⟩
          rw [← hn] at hm
          rwa [SName.text_inj hm] at hr
        conv => lhs; rw [← hn]
        obtain ⟨r, h0, h1, h2, h3⟩ := handle_name v st n x.body (line + (lines x.ws).length + (lines x.ws2).length)
        rw [h0]
        cases r with
        | err e =>
          obtain ⟨e', he, rfl⟩ := (h2 e).1 rfl
          simp only
          constructor
          · intro h; exact .inl (.inr (.inr ⟨hx, n, hn, .inl ⟨e', he, h.symm⟩⟩))
          · rintro (h | ⟨pre, y, post, -, ⟨-, ⟨-, h⟩, -⟩, -⟩)
            · rcases h with ⟨h, -⟩ | ⟨-, h, -⟩ | ⟨-, m, hm, h⟩
              · exact absurd h hx
              · exact absurd hn (h n)
              · rw [← hn] at hm
                rw [SName.text_inj hm, he] at h
                rcases h with ⟨e2, h, rfl⟩ | ⟨h, -⟩ | ⟨h, -⟩
                · cases h; rfl
                · cases h
                · cases h
            · rw [hout h] at he; cases he
        | panic =>
          have hp := h3.1 rfl
          simp only
          constructor
          · intro h; exact .inl (.inr (.inr ⟨hx, n, hn, .inr (.inl ⟨hp, h.symm⟩)⟩))
          · rintro (h | ⟨pre, y, post, -, ⟨-, ⟨-, h⟩, -⟩, -⟩)
            · rcases h with ⟨h, -⟩ | ⟨-, h, -⟩ | ⟨-, m, hm, h⟩
              · exact absurd h hx
              · exact absurd hn (h n)
              · rw [← hn] at hm
                rw [SName.text_inj hm, hp] at h
                rcases h with ⟨e2, h, rfl⟩ | ⟨-, rfl⟩ | ⟨h, -⟩
                · cases h
                · rfl
                · cases h
            · rw [hout h] at hp; cases hp
        | ok st' =>
          have hok : n.outcome D v x.body = .ok () := sectReads_outcome.1 ⟨st', ((h1 st').1 rfl).1⟩
          simp only
          by_cases hb : x.body = []
          · rw [if_pos (lines_len_zero.2 hb)]
            simp only
            constructor
            · intro h; exact .inl (.inr (.inr ⟨hx, n, hn, .inr (.inr ⟨hok, hb, h.symm⟩)⟩))
            · rintro (h | ⟨pre, y, post, -, ⟨-, ⟨h, -⟩, -⟩, -⟩)
              · rcases h with ⟨h, -⟩ | ⟨-, h, -⟩ | ⟨-, m, hm, h⟩
                · exact absurd h hx
                · exact absurd hn (h n)
                · rw [← hn] at hm
                  rw [SName.text_inj hm, hok] at h
                  rcases h with ⟨e2, h, rfl⟩ | ⟨h, -⟩ | ⟨-, -, h⟩
                  · cases h
                  · cases h
                  · exact h.symm
              · exact absurd hb h
          · rw [if_neg (fun h => hb (lines_len_zero.1 h))]
            simp only
            refine ih.trans ?_
            have hne : x.body ≠ [] := hb
            have hc : line + (lines x.ws).length + (lines x.ws2).length + ((lines x.body).length - 1) = line + x.counted := by
              unfold Sect.counted; omega
            rw [hc, hn]
            constructor
            · rintro ⟨pre, y, post, e, a1, a2, a3⟩
              right
              refine ⟨pre, y, post, e, ⟨?_, ⟨hb, n, hn, hok⟩, a1⟩, ⟨hx, fun z hz hm => a2 z hz (by simp [hm])⟩, ?_⟩
              · intro hm
                obtain ⟨z, hz, e⟩ := List.mem_map.1 hm
                exact a2 z hz (by simp [e])
              · simpa using a3
            · rintro (h | ⟨pre, y, post, e, ⟨b1, -, a1⟩, ⟨-, a2⟩, a3⟩)
              · rcases h with ⟨h, -⟩ | ⟨-, h, -⟩ | ⟨-, m, hm, h⟩
                · exact absurd h hx
                · exact absurd hn (h n)
                · rw [← hn] at hm
                  rw [SName.text_inj hm, hok] at h
                  rcases h with ⟨e2, h, rfl⟩ | ⟨h, -⟩ | ⟨-, h, -⟩
                  · cases h
                  · cases h
                  · exact absurd h hb
              · refine ⟨pre, y, post, e, a1, ?_, by simpa using a3⟩
                intro z hz hm
                rcases List.mem_append.1 hm with hm | hm
                · exact a2 z hz hm
                · rw [List.mem_singleton] at hm
                  exact b1 (hm ▸ List.mem_map_of_mem hz)
      · have h0 : OsuFile.handle v st x.name x.body (line + (lines x.ws).length + (lines x.ws2).length) = none :=
          handle_none.2 fun n e => hn ⟨n, e⟩
        rw [h0]
        simp only
        constructor
        · intro h; exact .inl (.inr (.inl ⟨hx, fun n e => hn ⟨n, e⟩, h.symm⟩))
        · rintro (h | ⟨pre, y, post, -, ⟨-, ⟨-, m, hm, -⟩, -⟩, -⟩)
          · rcases h with ⟨h, -⟩ | ⟨-, -, h⟩ | ⟨-, m, hm, -⟩
            · exact absurd h hx
            · exact h.symm
            · exact absurd ⟨m, hm⟩ hn
          · exact absurd ⟨m, hm⟩ hn

end

end Osu
