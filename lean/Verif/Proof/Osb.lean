/-
Storyboard files: variables, the loop over the sections, what is printed is read back.
-/
import Verif.Spec.Osb
import Verif.Proof.Subst
import Verif.Proof.FileText
import Verif.Proof.FileWell
import Verif.Proof.EventsSection
import Verif.Proof.FileStable
import Verif.Spec.FileValue

namespace Osu
open SB Ev Parser

/-! ### One variable -/

theorem variable_noHeader {l : Str} (h : l.head? ≠ some '$') : Variable.parse l = .err .missingHeader := by
  have : (['$'] : Str).isPrefixOf l = false := by
    cases l with
    | nil => rfl
    | cons c l =>
      have : '$' ≠ c := fun e => h (by rw [e]; rfl)
      simp [List.isPrefixOf, this]
  simp [Variable.parse, preceded, Parser.bind, context, tag, this, PRes.toRes, firstCtx]

theorem variable_header (r : Str) : (∃ v, Variable.parse ('$' :: r) = .ok v) ∨ Variable.parse ('$' :: r) = .err .missingEquals := by
  simp only [Variable.parse, preceded, Parser.bind, context, tag, takeTill, takeWhile, List.isPrefixOf, beq_self_eq_true, Bool.true_and,
    if_true, List.length_singleton, List.drop_succ_cons, List.drop_zero, ret, rest]
  cases r.dropWhile fun c => !(c == '=' || c == '\n') with
  | nil => right; simp [PRes.toRes, firstCtx]
  | cons c t =>
    by_cases hc : '=' = c
    · subst hc; left; simp [PRes.toRes]
    · right
      have : (['='] : Str).isPrefixOf (c :: t) = false := by simp [List.isPrefixOf, hc]
      simp [this, PRes.toRes, firstCtx]

theorem variable_parse {l : Str} {v : Variable} : Variable.parse l = .ok v ↔ VarReads l v := by
  have hn : ∀ n : Str, AllC (fun c => !(c == '=' || c == '\n')) n ↔ '=' ∉ n ∧ '\n' ∉ n := by
    intro n
    constructor
    · intro h
      exact ⟨fun hm => absurd (h _ hm) (by decide), fun hm => absurd (h _ hm) (by decide)⟩
    · rintro ⟨h1, h2⟩ c hc
      simp only [Bool.not_eq_true', Bool.or_eq_false_iff, beq_eq_false_iff_ne]
      exact ⟨fun e => h1 (e ▸ hc), fun e => h2 (e ▸ hc)⟩
  obtain ⟨name, value⟩ := v
  unfold Variable.parse VarReads
  rw [toRes_eq_ok]
  simp only [bind_eq_ok, preceded_eq_ok, context_eq_ok, tag_eq_ok, takeTill, takeWhile_eq_ok, rest_eq_ok, ret_eq_ok, hn]
  constructor
  · rintro ⟨r, n, s1, ⟨s2, s3, ⟨rfl, rfl⟩, rfl, ⟨h1, h2⟩, h3⟩, va, s4, ⟨s5, s6, ⟨rfl, rfl⟩, rfl, rfl⟩, rfl, e⟩
    cases e
    exact ⟨by simp, h1, h2⟩
  · rintro ⟨rfl, h1, h2⟩
    exact ⟨_, '=' :: value, name, ⟨_, _, ⟨rfl, rfl⟩, rfl, ⟨h1, h2⟩, .cons (by decide)⟩, [], value, ⟨_, _, ⟨rfl, rfl⟩, rfl, rfl⟩, rfl, rfl⟩

theorem variable_missingHeader {l : Str} : Variable.parse l = .err .missingHeader ↔ l.head? ≠ some '$' := by
  constructor
  · intro h e
    cases l with
    | nil => cases e
    | cons c l =>
      cases e
      rcases variable_header l with ⟨v, h'⟩ | h' <;> rw [h] at h' <;> cases h'
  · exact variable_noHeader

theorem variable_missingEquals {l : Str} : Variable.parse l = .err .missingEquals ↔ l.head? = some '$' ∧ ¬∃ v, VarReads l v := by
  constructor
  · intro h
    refine ⟨Classical.not_not.1 fun e => ?_, fun ⟨v, hv⟩ => ?_⟩
    · rw [variable_noHeader e] at h; cases h
    · rw [variable_parse.2 hv] at h; cases h
  · rintro ⟨h, hn⟩
    cases l with
    | nil => cases h
    | cons c l =>
      cases h
      rcases variable_header l with ⟨v, h'⟩ | h'
      · exact absurd ⟨v, variable_parse.1 h'⟩ hn
      · exact h'

theorem variable_no_panic (l : Str) : Variable.parse l ≠ .panic := by
  by_cases h : l.head? = some '$'
  · cases l with
    | nil => cases h
    | cons c l => cases h; rcases variable_header l with ⟨v, h'⟩ | h' <;> rw [h'] <;> simp
  · rw [variable_noHeader h]; simp

theorem varsRead_iff {body : Str} {vs : List Variable} :
    parseLines Variable.parse body = .ok vs ↔ VarsRead (contentLines (lines body)) vs := by
  rw [parseLines_ok_iff, contentLines_eq]
  generalize (lines body).filter nonBlank = ls
  constructor
  · intro h
    induction ls generalizing vs with
    | nil =>
      cases vs with
      | nil => exact .nil
      | cons => cases h
    | cons l ls ih =>
      cases vs with
      | nil => cases h
      | cons v vs =>
        simp only [List.map_cons, List.cons.injEq] at h
        exact .cons (variable_parse.1 h.1) (ih h.2)
  · intro h
    induction h with
    | nil => rfl
    | cons h _ ih => rw [List.map_cons, List.map_cons, ih, variable_parse.2 h]

/-! ### Variables in a section -/

theorem lastC_ok {cr : Bool} {c : Char} (h : c ≠ '\n' ∧ (cr = false → c ≠ '\r')) : lastC cr c = true := by
  cases cr <;> simp_all [lastC]

theorem lastC_ok_iff {cr : Bool} {c : Char} : lastC cr c = true ↔ c ≠ '\n' ∧ (cr = false → c ≠ '\r') := by
  cases cr <;> simp [lastC]

theorem varShw_ok {cr : Bool} {v : Variable} (h : VarWritableC cr v) :
    (AllC (lastC cr) v.shw ∧ nonBlank v.shw = true) ∧ Variable.parse v.shw = .ok v := by
  have e : v.shw = '$' :: (v.name ++ '=' :: v.value) := by simp [Variable.shw]
  have hc : AllC (lastC cr) v.shw := by
    rw [e]
    refine .cons (lastC_of (by decide)) (AllC.append ?_ (.cons (lastC_of (by decide)) ?_))
    · intro c hc
      exact lastC_ok (h.name c hc).2
    · intro c hc
      exact lastC_ok (h.value c hc)
  refine ⟨⟨hc, ?_⟩, ?_⟩
  · rw [nonBlank_iff, Ne, trim_eq_nil, e]
    intro h; exact absurd (h '$' (by simp)) (by decide)
  · rw [variable_parse]
    exact ⟨e, fun hm => (h.name _ hm).1 rfl, fun hm => (h.name _ hm).2.1 rfl⟩

/-- The printed definitions are read as the variables. -/
theorem vars_text {cr : Bool} {vs : List Variable} (h : ∀ v ∈ vs, VarWritableC cr v) (hne : vs ≠ [])
    (hE : cr = true → CleanEnds (join ['\n'] (vs.map Variable.shw))) :
    WellText (join ['\n'] (vs.map Variable.shw)) ∧ parseLines Variable.parse (join ['\n'] (vs.map Variable.shw)) = .ok vs := by
  have hl : ∀ l ∈ vs.map Variable.shw, LineOK l := by
    refine lineOK_lastC (cr := cr) ?_ hE
    intro l hl
    obtain ⟨v, hv, rfl⟩ := List.mem_map.1 hl
    exact (varShw_ok (h v hv)).1
  have hd : ∀ l ∈ vs.map Variable.shw, ∃ r, l = '$' :: r := by
    intro l hl
    obtain ⟨v, hv, rfl⟩ := List.mem_map.1 hl
    exact ⟨_, rfl⟩
  refine ⟨⟨_, rfl, by simpa using hne, hl, ?_, ?_⟩, ?_⟩
  · intro l hh
    obtain ⟨r, rfl⟩ := hd l (List.mem_of_mem_head? hh)
    exact .cons (by decide)
  · intro l hm
    obtain ⟨r, rfl⟩ := hd l (List.mem_of_mem_tail hm)
    simp
  · rw [parseLines_ok_iff, (lines_printed hl).1, (lines_printed hl).2, List.map_map]
    exact List.map_congr_left fun v hv => (varShw_ok (h v hv)).2

section
variable {D : Type} [DecLib D] [UniLib]

/-! ### Commands with variables -/

omit [UniLib] in
theorem dollar_body {c : Command D} (h : '$' ∉ c.shw) : '$' ∉ c.body := by
  intro hm
  apply h
  simp [Command.shw, Command.toStrVars, Command.variableReplace, hm]

theorem cmdText_vars {cr : Bool} {vars : List Variable} {k : Nat} {c : Command D} (hv : VarsOK vars) (hn : ∀ v ∈ vars, VarWritableC cr v)
    (hw : CmdWritableC cr c) (hb : c.bare = c) (hk : 1 ≤ k) (hd : '$' ∉ c.shw) : CmdText cr vars vars k c := by
  refine ⟨?_, cmdLine_chars (variableReplace_chars (lastC_of (by decide)) ?_ (body_chars hw)), cmdLine_indent _ _ _, hk⟩
  · have := Command.parse_shw hw (ind := spaces k) fun x hx => by rw [spaces_mem hx]; rfl
    rw [cmdParse, cmdLine_noHeader]
    simp only
    have e : cmdLine vars k c = ((spaces k ++ c.header) ++ [',']) ++ Command.variableReplace c.body vars := by
      rw [cmdLine_eq]; simp
    rw [e, subst_replace hv (dollar_body hd)]
    · have e2 : ((spaces k ++ c.header) ++ [',']) ++ c.body = spaces k ++ c.shw := by
        simp [Command.shw, Command.toStrVars, Command.variableReplace]
      rw [e2, this, hb]; rfl
    · intro hm
      simp only [List.append_assoc, List.mem_append, List.mem_singleton] at hm
      rcases hm with hm | hm | hm
      · exact absurd (spaces_mem hm) (by decide)
      · obtain ⟨st, p⟩ := c
        cases p <;> exact absurd hm (by simp only [Command.header]; decide)
      · exact absurd hm (by decide)
  · intro v hv c hc
    exact lastC_ok ((hn v hv).name c hc).2

/-- Printed without variables and read with variables. -/
theorem cmdText_novars {cr : Bool} {vars : List Variable} {k : Nat} {c : Command D}
    (hw : CmdWritableC cr c) (hb : c.bare = c) (hk : 1 ≤ k) (hd : '$' ∉ c.shw) : CmdText cr vars [] k c := by
  refine ⟨?_, cmdLine_chars (body_chars hw), cmdLine_indent _ _ _, hk⟩
  have h0 := (cmdText hw hb hk).parse
  rw [cmdParse, cmdLine_noHeader] at h0 ⊢
  simp only at h0 ⊢
  rw [substVars_none (show '$' ∉ Command.variableReplace c.body [] from dollar_body hd)]
  exact h0

theorem cmdsRead_vars {cr : Bool} {vars : List Variable} (hv : VarsOK vars) (hn : ∀ v ∈ vars, VarWritableC cr v) {e : Event D}
    (hw : ∀ x ∈ listing 1 (cmdsOf e), CmdWritableC cr x.2) (hd : ∀ x ∈ listing 1 (cmdsOf e), '$' ∉ x.2.shw) : CmdsRead cr vars e := by
  intro x hx
  have h1 := listing_bare _ _ x hx
  have h2 := listing_levels _ x hx
  have : cmdVars vars e = vars ∨ cmdVars vars e = [] := by cases e <;> simp [cmdVars]
  rcases this with h | h <;> rw [h]
  · exact cmdText_vars hv hn (hw x hx) h1 h2 (hd x hx)
  · exact cmdText_novars (hw x hx) h1 h2 (hd x hx)

/-! ### The loop over the sections -/

/-- One section. -/
inductive OsbStep (v : Nat) (o : Osb D) (x : Sect) : Osb D → Prop
  | vars {vs : List Variable} (hx : x.name = c!"Variables") (ho : o.variables = none)
      (h : VarsRead (contentLines (lines x.body)) vs) : OsbStep v o x { o with variables := some vs }
  | events {es : List (Event D)} (hx : x.name = c!"Events") (ho : o.events = none)
      (h : Events.parseVars v (o.variables.getD []) x.body = .ok es) : OsbStep v o x { o with events := some es }

/-- Several sections. -/
inductive OsbSteps (v : Nat) : Osb D → List Sect → Osb D → Prop
  | nil (o : Osb D) : OsbSteps v o [] o
  | cons {o o' o'' : Osb D} {x : Sect} {xs : List Sect} (h : OsbStep v o x o') (hs : OsbSteps v o' xs o'') : OsbSteps v o (x :: xs) o''

theorem osbReads_steps {v : Nat} {xs : List Sect} {o : Osb D} : OsbReads v xs o ↔ OsbSteps v ⟨none, none⟩ xs o := by
  constructor
  · intro h
    cases h with
    | none => exact .nil _
    | vars hx h => exact .cons (.vars hx rfl h) (.nil _)
    | events hy h => exact .cons (.events hy rfl h) (.nil _)
    | varsEvents hx hy h h' => exact .cons (.vars hx rfl h) (.cons (.events hy rfl h') (.nil _))
    | eventsVars hy hx h' h => exact .cons (.events hy rfl h') (.cons (.vars hx rfl h) (.nil _))
  · intro h
    cases h with
    | nil => exact .none
    | cons h hs =>
      cases h with
      | vars hx ho h =>
        cases hs with
        | nil => exact .vars hx h
        | cons h' hs =>
          cases h' with
          | vars _ ho => cases ho
          | events hy ho h' =>
            cases hs with
            | nil => exact .varsEvents hx hy h h'
            | cons h'' hs =>
              cases h'' with
              | vars _ ho => cases ho
              | events _ ho => cases ho
      | events hy ho h =>
        cases hs with
        | nil => exact .events hy h
        | cons h' hs =>
          cases h' with
          | vars hx ho h' =>
            cases hs with
            | nil => exact .eventsVars hy hx h h'
            | cons h'' hs =>
              cases h'' with
              | vars _ ho => cases ho
              | events _ ho => cases ho
          | events _ ho => cases ho

/-- The names of the sections read so far. -/
def SeenOK (seen : List Str) (o : Osb D) : Prop :=
  (c!"Variables" ∈ seen ↔ o.variables ≠ none) ∧ (c!"Events" ∈ seen ↔ o.events ≠ none) ∧
    ∀ n ∈ seen, n = c!"Variables" ∨ n = c!"Events"

abbrev osbLoop (v : Nat) (xs : List Sect) (line : Nat) (seen : List Str) (st : Osb D) : Res (LErr OsbErr) (Osb D) :=
  sectionLoop .duplicateSections .unknownSection (Osb.handle v) (fun line n => some (line + (n - 1))) xs line seen st

/-- What happens at one section. -/
theorem osb_one {v : Nat} {x : Sect} {xs : List Sect} {line : Nat} {seen : List Str} {st : Osb D} (hs : SeenOK seen st) :
    (∃ st', OsbStep v st x st' ∧ SeenOK (seen ++ [x.name]) st' ∧
      osbLoop v (x :: xs) line seen st = osbLoop v xs (line + x.counted) (seen ++ [x.name]) st') ∨
    (OsbStops v (line + (lines x.ws).length) (line + (lines x.ws).length + (lines x.ws2).length) st x (osbLoop v (x :: xs) line seen st)) := by
  obtain ⟨s1, s2, s3⟩ := hs
  rw [osbLoop, sectionLoop]
  by_cases hx : x.name = c!"Variables"
  · by_cases hm : x.name ∈ seen
    · rw [if_pos hm]
      exact .inr (.dupVariables hx (s1.1 (hx ▸ hm)))
    · rw [if_neg hm]
      have hv : st.variables = none := by
        cases hv : st.variables with
        | none => rfl
        | some vs => exact absurd (hx ▸ s1.2 (by simp [hv])) hm
      simp only [Osb.handle, if_pos hx]
      cases hp : parseLines Variable.parse x.body with
      | ok vs =>
        left
        refine ⟨{ st with variables := some vs }, .vars hx hv (varsRead_iff.1 hp), ⟨?_, ?_, ?_⟩, ?_⟩
        · simp [hx]
        · simp only [List.mem_append, List.mem_singleton, hx, s2]
          simp
        · intro n hn
          rcases List.mem_append.1 hn with hn | hn
          · exact s3 n hn
          · rw [List.mem_singleton.1 hn]; exact .inl hx
        · simp only [processingLine, Bind.bind, Res.bind, Res.mapErr, Sect.counted, ← Nat.add_assoc]
      | err e =>
        right
        obtain ⟨k, e⟩ := e
        simp only [processingLine, Bind.bind, Res.bind]
        exact .variables hx hv (parseLines_firstBad.1 hp)
      | panic => exact absurd hp (parseLines_no_panic variable_no_panic _)
  · by_cases hy : x.name = c!"Events"
    · by_cases hm : x.name ∈ seen
      · rw [if_pos hm]
        exact .inr (.dupEvents hy (s2.1 (hy ▸ hm)))
      · rw [if_neg hm]
        have hv : st.events = none := by
          cases hv : st.events with
          | none => rfl
          | some vs => exact absurd (hy ▸ s2.2 (by simp [hv])) hm
        simp only [Osb.handle, if_neg hx, if_pos hy]
        cases hp : (Events.parseVars v (st.variables.getD []) x.body : Res _ (List (Event D))) with
        | ok vs =>
          left
          refine ⟨{ st with events := some vs }, .events hy hv hp, ⟨?_, ?_, ?_⟩, ?_⟩
          · simp only [List.mem_append, List.mem_singleton, hy, s1]
            simp
          · simp [hy]
          · intro n hn
            rcases List.mem_append.1 hn with hn | hn
            · exact s3 n hn
            · rw [List.mem_singleton.1 hn]; exact .inr hy
          · simp only [processingLine, Bind.bind, Res.bind, Res.mapErr, Sect.counted, ← Nat.add_assoc]
        | err e =>
          right
          simp only [processingLine, Bind.bind, Res.bind]
          exact .events hy hv hp
        | panic =>
          right
          simp only [processingLine, Bind.bind, Res.bind]
          exact .panic hy hv hp
    · right
      have hm : x.name ∉ seen := fun hm => (s3 _ hm).elim hx hy
      rw [if_neg hm]
      simp only [Osb.handle, if_neg hx, if_neg hy]
      exact .unknown hx hy

omit [UniLib] in
theorem OsbStops.not_ok [UniLib] {v line bline : Nat} {o : Osb D} {x : Sect} {α : Type} {r : Res (LErr OsbErr) α} (h : OsbStops v line bline o x r) :
    r.isOk = false := by cases h <;> rfl

theorem OsbStep.unique {v : Nat} {o o' o'' : Osb D} {x : Sect} (h : OsbStep v o x o') (h' : OsbStep v o x o'') : o' = o'' := by
  cases h with
  | vars hx ho h =>
    cases h' with
    | vars hx' ho' h' =>
      rw [← varsRead_iff] at h h'
      rw [h] at h'; cases h'; rfl
    | events hy => rw [hx] at hy; exact absurd hy (by decide)
  | events hx ho h =>
    cases h' with
    | vars hy => rw [hx] at hy; exact absurd hy (by decide)
    | events hy ho' h' => rw [h] at h'; cases h'; rfl

theorem OsbStops.unique {v line bline : Nat} {o : Osb D} {x : Sect} {α : Type} {r r' : Res (LErr OsbErr) α} (h : OsbStops v line bline o x r)
    (h' : OsbStops v line bline o x r') : r = r' := by
  have hne : (c!"Variables" : Str) ≠ c!"Events" := by decide
  have hb : ∀ {k k' : Nat} {e e' : VarErr}, FirstBad Variable.parse x.body k e → FirstBad Variable.parse x.body k' e' → k = k' ∧ e = e' := by
    intro k k' e e' h h'
    rw [← parseLines_firstBad] at h h'
    rw [h] at h'; cases h'; exact ⟨rfl, rfl⟩
  cases h with
  | dupVariables hx ho =>
    cases h' with
    | dupVariables => rfl
    | dupEvents => rfl
    | unknown hn => exact absurd hx hn
    | variables _ ho' => exact absurd ho' ho
    | events hy => exact absurd (hx.symm.trans hy) hne
    | panic hy => exact absurd (hx.symm.trans hy) hne
  | dupEvents hy ho =>
    cases h' with
    | dupVariables => rfl
    | dupEvents => rfl
    | unknown _ hn => exact absurd hy hn
    | variables hx => exact absurd (hx.symm.trans hy) hne
    | events _ ho' => exact absurd ho' ho
    | panic _ ho' => exact absurd ho' ho
  | unknown hn hn' =>
    cases h' with
    | dupVariables hx => exact absurd hx hn
    | dupEvents hy => exact absurd hy hn'
    | unknown => rfl
    | variables hx => exact absurd hx hn
    | events hy => exact absurd hy hn'
    | panic hy => exact absurd hy hn'
  | variables hx ho h =>
    cases h' with
    | dupVariables _ ho' => exact absurd ho ho'
    | dupEvents hy => exact absurd (hx.symm.trans hy) hne
    | unknown hn => exact absurd hx hn
    | variables _ _ h' => obtain ⟨rfl, rfl⟩ := hb h h'; rfl
    | events hy => exact absurd (hx.symm.trans hy) hne
    | panic hy => exact absurd (hx.symm.trans hy) hne
  | events hy ho h =>
    cases h' with
    | dupVariables hx => exact absurd (hx.symm.trans hy) hne
    | dupEvents _ ho' => exact absurd ho ho'
    | unknown _ hn => exact absurd hy hn
    | variables hx => exact absurd (hx.symm.trans hy) hne
    | events _ _ h' => rw [h] at h'; cases h'; rfl
    | panic _ _ h' => rw [h] at h'; cases h'
  | panic hy ho h =>
    cases h' with
    | dupVariables hx => exact absurd (hx.symm.trans hy) hne
    | dupEvents _ ho' => exact absurd ho ho'
    | unknown _ hn => exact absurd hy hn
    | variables hx => exact absurd (hx.symm.trans hy) hne
    | events _ _ h' => rw [h] at h'; cases h'
    | panic => rfl

theorem osbStep_stops {v line bline : Nat} {o o' : Osb D} {x : Sect} {α : Type} {r : Res (LErr OsbErr) α} (h : OsbStep v o x o')
    (h' : OsbStops v line bline o x r) : False := by
  have hne : (c!"Variables" : Str) ≠ c!"Events" := by decide
  cases h with
  | vars hx ho h =>
    cases h' with
    | dupVariables _ ho' => exact ho' ho
    | dupEvents hy => exact hne (hx.symm.trans hy)
    | unknown hn => exact hn hx
    | variables _ _ hb =>
      rw [← parseLines_firstBad] at hb
      rw [varsRead_iff.2 h] at hb; cases hb
    | events hy => exact hne (hx.symm.trans hy)
    | panic hy => exact hne (hx.symm.trans hy)
  | events hy ho h =>
    cases h' with
    | dupVariables hx => exact hne (hx.symm.trans hy)
    | dupEvents _ ho' => exact ho' ho
    | unknown _ hn => exact hn hy
    | variables hx => exact hne (hx.symm.trans hy)
    | events _ _ hb => rw [h] at hb; cases hb
    | panic _ _ hb => rw [h] at hb; cases hb

theorem osbLoop_ok {v : Nat} {xs : List Sect} {line : Nat} {seen : List Str} {st o : Osb D} (hs : SeenOK seen st) :
    osbLoop v xs line seen st = .ok o ↔ OsbSteps v st xs o := by
  induction xs generalizing line seen st with
  | nil =>
    rw [osbLoop, sectionLoop]
    constructor
    · intro h; cases h; exact .nil _
    · intro h; cases h; rfl
  | cons x xs ih =>
    rcases osb_one (v := v) (x := x) (xs := xs) (line := line) hs with ⟨st', h1, h2, h3⟩ | h
    · rw [h3, ih h2]
      constructor
      · exact .cons h1
      · intro h
        cases h with
        | cons h hs => rw [h1.unique h]; exact hs
    · constructor
      · intro h'
        have := h.not_ok
        rw [h'] at this; cases this
      · intro h'
        cases h' with
        | cons h1 _ => exact (osbStep_stops h1 h).elim

theorem osbLoop_stops {v : Nat} {xs : List Sect} {line : Nat} {seen : List Str} {st : Osb D} (hs : SeenOK seen st)
    {r : Res (LErr OsbErr) (Osb D)} (hr : r.isOk = false) :
    osbLoop v xs line seen st = r ↔ ∃ p x q o, xs = p ++ x :: q ∧ OsbSteps v st p o ∧
      OsbStops v (nameLine line p x) (bodyLine line p x) o x r := by
  induction xs generalizing line seen st with
  | nil =>
    rw [osbLoop, sectionLoop]
    constructor
    · intro h; rw [← h] at hr; cases hr
    · rintro ⟨p, x, q, o, h, -⟩; simp at h
  | cons x xs ih =>
    have hnl : nameLine line [] x = line + (lines x.ws).length := by simp [nameLine]
    have hbl : bodyLine line [] x = line + (lines x.ws).length + (lines x.ws2).length := by simp [bodyLine, nameLine]
    rcases osb_one (v := v) (x := x) (xs := xs) (line := line) hs with ⟨st', h1, h2, h3⟩ | h
    · rw [h3, ih h2]
      constructor
      · rintro ⟨p, y, q, o, rfl, h4, h5⟩
        exact ⟨x :: p, y, q, o, rfl, .cons h1 h4, by rw [nameLine_cons, bodyLine_cons]; exact h5⟩
      · rintro ⟨p, y, q, o, e, h4, h5⟩
        cases p with
        | nil =>
          cases e
          cases h4
          exact (osbStep_stops h1 h5).elim
        | cons z p =>
          cases e
          cases h4 with
          | cons h h4 =>
            rw [← h1.unique h] at h4
            rw [nameLine_cons, bodyLine_cons] at h5
            exact ⟨p, y, q, o, rfl, h4, h5⟩
    · rw [← hbl, ← hnl] at h
      constructor
      · intro h'
        rw [h'] at h
        exact ⟨[], x, xs, st, rfl, .nil _, h⟩
      · rintro ⟨p, y, q, o, e, h4, h5⟩
        cases p with
        | nil =>
          cases e
          cases h4
          exact h.unique h5
        | cons z p =>
          cases e
          cases h4 with
          | cons h1 h4 => exact (osbStep_stops h1 h).elim

theorem seenOK_nil : SeenOK [] (⟨none, none⟩ : Osb D) := ⟨by simp, by simp, by simp⟩

theorem osb_parse_eq {v : Nat} {s : Str} {pre : List Str} {xs : List Sect} {rest : Str} (hv : 14 ≤ v) (h : Layout s pre xs rest)
    (hp : ∀ l ∈ pre, Ignorable l) : (Osb.parse v s : Res (LErr OsbErr) (Option (Osb D))) =
      (osbLoop v xs pre.length [] ⟨none, none⟩ >>= fun o => .ok (some o)) := by
  unfold Osb.parse
  have hc := preCount_layout h
  obtain ⟨h1, h2⟩ := layout_iff.1 h
  rw [if_neg (by omega), ← h1, preBad_none.2 hp, sections_iff.2 h2, hc]

theorem osb_parse_bad {v : Nat} {s : Str} {a b : List Str} {l : Str} {xs : List Sect} {rest : Str} (hv : 14 ≤ v)
    (h : Layout s (a ++ l :: b) xs rest) (ha : ∀ x ∈ a, Ignorable x) (hl : ¬Ignorable l) :
    (Osb.parse v s : Res (LErr OsbErr) (Option (Osb D))) = .err ⟨a.length, .unexpectedLine⟩ := by
  unfold Osb.parse
  obtain ⟨h1, h2⟩ := layout_iff.1 h
  rw [if_neg (by omega), ← h1, preBad_some.2 ⟨a, l, b, rfl, (Nat.zero_add _).symm, ha, hl⟩]

/-- Either all lines before the sections are ignorable, or there is a first one that is not. -/
theorem pre_cases (pre : List Str) : (∀ l ∈ pre, Ignorable l) ∨ ∃ a l b, pre = a ++ l :: b ∧ (∀ x ∈ a, Ignorable x) ∧ ¬Ignorable l := by
  cases h : preBad 0 pre with
  | none => exact .inl (preBad_none.1 h)
  | some k =>
    obtain ⟨a, l, b, h1, -, h2, h3⟩ := preBad_some.1 h
    exact .inr ⟨a, l, b, h1, h2, h3⟩

/-! ### Texts made of blocks -/

omit [DecLib D] [UniLib] in
theorem blocks_layout0 {bs : List (Str × Str)} (h : ∀ b ∈ bs, NameOK b.1 ∧ WellText b.2) :
    Layout (join ['\n', '\n'] (bs.map blockText)) [] (blockSects [] bs) [] := by
  obtain ⟨ls, h1, -, h3, h4⟩ := blocks_layout h
  refine ⟨ls, ?_, by simp, h3, h4⟩
  have e : ∀ t : Str, lines ('\n' :: t) = [] :: lines t := fun t =>
    lines_append_nl (l := []) .nil (by simp [NoEndCR]) t
  have := h1
  rw [show c!"\n\n" ++ join ['\n', '\n'] (bs.map blockText) = '\n' :: '\n' :: join ['\n', '\n'] (bs.map blockText) from rfl, e, e] at this
  simpa using this

omit [DecLib D] [UniLib] in
theorem contentLines_tail {w body : Str} (hw : Tail w) (hb : body.getLast? ≠ some '\r') :
    contentLines (lines (body ++ w)) = contentLines (lines body) := by
  have hbe : BlankEq body (body ++ w) := by
    obtain ⟨w', rfl, hm⟩ := hw
    refine .ins (.refl _) (.last body w' hb ?_)
    intro c hc
    have hc := hm c (by simp [hc])
    simp only [isMultispace, Bool.or_eq_true, beq_iff_eq] at hc
    rcases hc with ((rfl | rfl) | rfl) | rfl <;> decide
  rw [contentLines_eq, contentLines_eq, hbe.filter]

/-- Printing a storyboard and reading the text, given the events text. -/
theorem osb_text {v : Nat} (hv : 14 ≤ v) {vars : Option (List Variable)} {evs : Option (List (Event D))} {evs' : List (Event D) → List (Event D)}
    (h1 : ∀ vs, vars = some vs → vs ≠ [] ∧ ∀ x ∈ vs, VarWritable x)
    (h2 : ∀ es, evs = some es → ∃ t, Events.shwVars v (vars.getD []) es = some t ∧ WellText t ∧
      Events.parseVars v (vars.getD []) t = .ok (evs' es)) :
    ∃ s, Osb.shw v ⟨vars, evs⟩ = some (some s) ∧ Osb.parse v s = .ok (some ⟨vars, evs.map evs'⟩) := by
  have hV : NameOK c!"Variables" := by unfold NameOK; decide
  have hE : NameOK c!"Events" := by unfold NameOK; decide
  have main : ∀ (bs : List (Str × Str)) (o : Osb D), (∀ b ∈ bs, NameOK b.1 ∧ WellText b.2) → OsbReads v (blockSects [] bs) o →
      Osb.parse v (join ['\n', '\n'] (bs.map blockText)) = .ok (some o) := by
    intro bs o hb hr
    rw [osb_parse_eq hv (blocks_layout0 hb) (by simp), (osbLoop_ok seenOK_nil).2 (osbReads_steps.1 hr)]
    rfl
  cases vars with
  | none =>
    cases evs with
    | none =>
      refine ⟨[], ?_, main [] _ (by simp) .none⟩
      unfold Osb.shw
      rw [if_neg (by omega)]; rfl
    | some es =>
      obtain ⟨t, e1, e2, e3⟩ := h2 es rfl
      refine ⟨join ['\n', '\n'] ([(c!"Events", t)].map blockText), ?_, main _ _ (by simpa using ⟨hE, e2⟩) (.events rfl e3)⟩
      unfold Osb.shw
      rw [if_neg (by omega)]
      simp only [e1]
      rfl
  | some vs =>
    obtain ⟨f1, f2⟩ := h1 vs rfl
    obtain ⟨w1, w2⟩ := vars_text f2 f1 nofun
    rw [varsRead_iff] at w2
    cases evs with
    | none =>
      refine ⟨join ['\n', '\n'] ([(c!"Variables", join ['\n'] (vs.map Variable.shw))].map blockText), ?_, main _ _ (by simpa using ⟨hV, w1⟩) (.vars rfl w2)⟩
      unfold Osb.shw
      rw [if_neg (by omega)]
      rfl
    | some es =>
      obtain ⟨t, e1, e2, e3⟩ := h2 es rfl
      refine ⟨join ['\n', '\n'] ([(c!"Variables", join ['\n'] (vs.map Variable.shw)), (c!"Events", t)].map blockText), ?_,
        main _ _ (by simpa using ⟨⟨hV, w1⟩, hE, e2⟩) (.varsEvents rfl rfl ?_ e3)⟩
      · unfold Osb.shw
        rw [if_neg (by omega)]
        simp only [e1]
        rfl
      · rw [contentLines_tail tail_nl w1.last]; exact w2

theorem osb_events_text {v : Nat} {vars : List Variable} {es : List (Event D)} (hne : es ≠ [])
    (h : ∀ e ∈ es, HeadWritable v e ∧ CmdsRead false vars e) :
    ∃ t, Events.shwVars v vars es = some t ∧ WellText t ∧ Events.parseVars v vars t = .ok (es.map quoted) := by
  obtain ⟨t, e1, e2, ls, e3, e4, e5⟩ := events_text h nofun
  exact ⟨t, e1, events_wellText e2 e3 e4 fun e => hne (e5.1 e), e2⟩

/-- Round trip. -/
theorem osb_round_trip {v : Nat} (hv : 14 ≤ v) {o : Osb D} (h : OsbWritable v o) :
    ∃ s, Osb.shw v o = some (some s) ∧ Osb.parse v s = .ok (some ⟨o.variables, o.events.map (List.map quoted)⟩) := by
  obtain ⟨vars, evs⟩ := o
  refine osb_text hv h.vars ?_
  intro es he
  obtain ⟨g1, g2⟩ := h.events es he
  refine osb_events_text g1 fun e hm => ⟨(g2 e hm).1, ?_⟩
  cases vars with
  | none => exact cmdsRead_of_writable (g2 e hm).2
  | some vs =>
    obtain ⟨k1, k2⟩ := h.apart vs es rfl he
    exact cmdsRead_vars k1 (h.vars vs rfl).2 (g2 e hm).2 (k2 e hm)

/-! ### What is read can be written -/

omit [DecLib D] [UniLib] in
theorem substVars_chars {f : Char → Bool} {nh line : Str} {vars : List Variable} (hv : ∀ v ∈ vars, AllC f v.value) (hl : AllC f line) :
    AllC f (substVars nh line vars) := by
  have aux : ∀ (pat to s : Str), AllC f to → AllC f s → ∀ k, AllC f (replaceAux pat to k s) := by
    intro pat to s ht
    induction s with
    | nil => intro _ k; cases k <;> exact .nil
    | cons c s ih =>
      intro hs k
      have ih := ih fun x hx => hs x (by simp [hx])
      cases k with
      | succ k => exact ih k
      | zero =>
        rw [replaceAux]
        split
        · exact ht.append (ih _)
        · exact .cons (hs c (by simp)) (ih 0)
  induction vars generalizing line with
  | nil => exact hl
  | cons v vs ih =>
    rw [substVars]
    refine ih (fun w hw => hv w (by simp [hw])) ?_
    split
    · rw [replace_cons]; exact aux _ _ _ (hv v (by simp)) hl 0
    · exact hl

theorem cmdLines_writable_vars {cr : Bool} {vars : List Variable} (hv : ∀ v ∈ vars, AllC (lastC cr) v.value) {ls : List Str} {xs : List (Nat × Command D)}
    (h : CmdLines (CmdLineParses vars) ls xs) (hl : ∀ l ∈ ls, AllC (lastC cr) l) : ∀ x ∈ xs, CmdWritableC cr x.2 := by
  induction h with
  | nil => intro x hx; cases hx
  | @cons l x ls xs h _ ih =>
    intro y hy
    rcases List.mem_cons.1 hy with rfl | hy
    · obtain ⟨-, -, -, hc, -⟩ := h
      unfold cmdParse at hc
      cases hw : withoutHeader l with
      | none => rw [hw] at hc; cases hc
      | some nh =>
        rw [hw] at hc
        simp only at hc
        cases hp : (Command.parse (substVars nh l vars) : Res _ (Command D)) with
        | ok c =>
          rw [hp] at hc
          cases hc
          exact (Command.parse_writable (substVars_chars hv (hl l (by simp))) hp).1
        | err e => rw [hp] at hc; cases hc
        | panic => rw [hp] at hc; cases hc
    · exact ih (fun l' hl' => hl l' (by simp [hl'])) y hy

theorem sectionReads_writable_vars {cr : Bool} {v : Nat} {vars : List Variable} (hv : ∀ v ∈ vars, AllC (lastC cr) v.value) {ls : List Str} {evs : List (Event D)}
    (h : SectionReads v (CmdLineParses vars) ls evs) (hl : ∀ l ∈ ls, AllC (lastC cr) l) : ∀ e ∈ evs, writtenIn v e = true → EvWritableC cr v e := by
  induction h with
  | nil => intro e he; cases he
  | @cons hd cls ls e evs hh hc _ ih =>
    intro e' he' hw
    rcases List.mem_cons.1 he' with rfl | he'
    · refine ⟨?_, ?_⟩
      · exact headWritable_set.1 (headReads_writable hh (hl hd (by simp)) (by rw [writtenIn_set]; exact hw))
      · exact cmdLines_writable_vars hv hc fun l hm => hl l (by simp [hm])
    · exact ih (fun l hm => hl l (by simp [hm])) e' he' hw

omit [DecLib D] [UniLib] in
theorem noCR_lines {cr : Bool} {s : Str} (hs : cr = false → '\r' ∉ s) : ∀ l ∈ lines s, AllC (lastC cr) l := by
  intro l h1 c hc
  have h2 : c ≠ '\n' := by have := lines_noLF s l h1 c hc; simpa using this
  refine lastC_ok ⟨h2, fun h0 => ?_⟩
  have h3 : c ≠ '\r' := by
    have := lines_allC (f := fun c => !(c == '\r')) (s := s)
      (fun c hc => by simp only [Bool.not_eq_true', beq_eq_false_iff_ne]; rintro rfl; exact hs h0 hc) l h1 c hc
    simpa using this
  exact h3

omit [DecLib D] [UniLib] in
theorem varsRead_writable {cr : Bool} {ls : List Str} {vs : List Variable} (h : VarsRead ls vs) (hl : ∀ l ∈ ls, AllC (lastC cr) l) : ∀ v ∈ vs, VarWritableC cr v := by
  induction h with
  | nil => intro v hv; cases hv
  | @cons l ls v vs h _ ih =>
    intro w hw
    rcases List.mem_cons.1 hw with rfl | hw
    · obtain ⟨rfl, h1, h2⟩ := h
      have hl := hl ('$' :: (w.name ++ '=' :: w.value)) (by simp)
      have hc : ∀ c ∈ '$' :: (w.name ++ '=' :: w.value), c ≠ '\n' ∧ (cr = false → c ≠ '\r') := fun c hc => lastC_ok_iff.1 (hl c hc)
      refine ⟨fun c hm => ⟨fun e => h1 (e ▸ hm), (hc c (by simp [hm])).1, (hc c (by simp [hm])).2⟩, fun c hm => hc c (by simp [hm])⟩
    · exact ih (fun l hm => hl l (by simp [hm])) w hw

omit [DecLib D] [UniLib] in
theorem body_noCR {s rest : Str} {pre : List Str} {xs : List Sect} (hs : NoBareCR s) (hl : Layout s pre xs rest) : ∀ x ∈ xs, '\r' ∉ x.body := by
  obtain ⟨ls, h1, -, -, h4⟩ := hl
  have : '\r' ∉ join ['\n'] ls := join_noCR fun l hl => hs l (by rw [h1]; simp [hl])
  intro x hx hm
  apply this
  rw [sections_text h4]
  simp only [List.mem_append, List.mem_flatten, List.mem_map]
  left
  exact ⟨x.text, ⟨x, hx, rfl⟩, by simp [Sect.text, hm]⟩

/-- What a storyboard that was read is made of. -/
theorem osb_read_writable {cr : Bool} {v : Nat} {s : Str} {o : Osb D} (hs : cr = false → NoBareCR s) (h : Osb.parse v s = .ok (some o)) :
    (∀ vs, o.variables = some vs → ∀ x ∈ vs, VarWritableC cr x) ∧
    ∀ es, o.events = some es → ∀ e ∈ es, writtenIn v e = true → EvWritableC cr v e := by
  by_cases hv : v < 14
  · unfold Osb.parse at h
    rw [if_pos hv] at h; cases h
  · obtain ⟨pre, xs, rest, hl⟩ := layout_exists s
    rcases pre_cases pre with hp | ⟨a, l, b, rfl, ha, hb⟩
    · rw [osb_parse_eq (by omega) hl hp] at h
      have hr : osbLoop v xs pre.length [] ⟨none, none⟩ = .ok o := by
        cases hr : osbLoop v xs pre.length [] (⟨none, none⟩ : Osb D) with
        | ok o' => rw [hr] at h; cases h; rfl
        | err e => rw [hr] at h; cases h
        | panic => rw [hr] at h; cases h
      rw [osbLoop_ok seenOK_nil, ← osbReads_steps] at hr
      clear h
      have hb : cr = false → ∀ x ∈ xs, '\r' ∉ x.body := fun h => body_noCR (hs h) hl
      have hV : ∀ {x : Sect} {vs : List Variable}, x ∈ xs → VarsRead (contentLines (lines x.body)) vs → ∀ v ∈ vs, VarWritableC cr v := by
        intro x vs hx h
        exact varsRead_writable h fun l hl => noCR_lines (fun h => hb h x hx) l (List.mem_filter.1 hl).1
      have hE : ∀ {x : Sect} {vars : List Variable} {es : List (Event D)}, x ∈ xs → (∀ v ∈ vars, VarWritableC cr v) → Events.parseVars v vars x.body = .ok es →
          ∀ e ∈ es, writtenIn v e = true → EvWritableC cr v e := by
        intro x vars es hx hvars h
        rw [events_reads_vars] at h
        refine sectionReads_writable_vars ?_ h fun l hl => noCR_lines (fun h => hb h x hx) l (List.mem_filter.1 hl).1
        intro v hv c hc
        exact lastC_ok ((hvars v hv).value c hc)
      cases hr with
      | none => exact ⟨nofun, nofun⟩
      | vars hx h => exact ⟨fun vs e => by cases e; exact hV (by simp) h, nofun⟩
      | events hy h => exact ⟨nofun, fun es e => by cases e; exact hE (vars := []) (by simp) (by simp) h⟩
      | varsEvents hx hy h h' =>
        have := hV (by simp) h
        exact ⟨fun vs e => by cases e; exact this, fun es e => by cases e; exact hE (by simp) this h'⟩
      | eventsVars hy hx h' h =>
        exact ⟨fun vs e => by cases e; exact hV (by simp) h, fun es e => by cases e; exact hE (vars := []) (by simp) (by simp) h'⟩
    · rw [osb_parse_bad (by omega) hl ha hb] at h; cases h

end

end Osu
