/-
Storyboard files and variables: C37, C38, C39, C55.
-/
import Verif.Proof.OsbRead
import Verif.Props.File

namespace Osu
open SB Ev

/-! ## C37: definitions of variables -/

/-- A line defines a variable exactly if it is `$`, a name without `=` and line feed, `=`, and the value up to its end. -/
theorem C37_grammar (l : Str) (v : Variable) : Variable.parse l = .ok v ↔
    l = ['$'] ++ v.name ++ ['='] ++ v.value ∧ '=' ∉ v.name ∧ '\n' ∉ v.name := by
  rw [variable_parse, VarReads]; simp

example : Variable.parse c!"$x=1=2" = .ok ⟨c!"x", c!"1=2"⟩ := (C37_grammar _ _).2 ⟨by decide, by decide, by decide⟩

/-- The error is the missing `$` exactly if the line does not begin with `$`. -/
theorem C37_missing_header (l : Str) : Variable.parse l = .err .missingHeader ↔ l.head? ≠ some '$' := variable_missingHeader

example : Variable.parse c!" $x=1" = .err .missingHeader := (C37_missing_header _).2 (by decide)

/-- The error is the missing `=` exactly if the line begins with `$` and has no `=` before its first line feed. -/
theorem C37_missing_equals (l : Str) : Variable.parse l = .err .missingEquals ↔
    l.head? = some '$' ∧ '=' ∉ l.takeWhile (· ≠ '\n') := by
  rw [variable_missingEquals]
  refine and_congr_right fun h => ?_
  cases l with
  | nil => cases h
  | cons c r =>
    cases h
    rw [List.takeWhile_cons_of_pos (by decide)]
    constructor
    · intro hn hm
      have hm : '=' ∈ r.takeWhile (· ≠ '\n') := by simpa using hm
      apply hn
      have e := List.takeWhile_append_dropWhile (p := fun c : Char => decide (c ≠ '\n')) (l := r)
      obtain ⟨a, b, hab, ha⟩ := List.append_of_mem hm |> fun ⟨a, b, hab⟩ => (show ∃ a b, r.takeWhile (· ≠ '\n') = a ++ '=' :: b ∧ '=' ∉ a from by
        clear hab
        generalize r.takeWhile (fun c => decide (c ≠ '\n')) = t at hm
        induction t with
        | nil => cases hm
        | cons x t ih =>
          by_cases hx : '=' = x
          · exact ⟨[], t, by rw [hx]; rfl, by simp⟩
          · obtain ⟨a, b, h1, h2⟩ := ih (by rcases List.mem_cons.1 hm with h | h; exact absurd h hx; exact h)
            exact ⟨x :: a, b, by rw [h1]; rfl, by simp [hx, h2]⟩)
      refine ⟨⟨a, b ++ r.dropWhile fun c => decide (c ≠ '\n')⟩, ?_, ha, ?_⟩
      · conv => lhs; rw [← e, hab]
        simp
      · intro hl
        have : '\n' ∈ r.takeWhile (· ≠ '\n') := by rw [hab]; simp [hl]
        have := takeWhile_allC (fun c => decide (c ≠ '\n')) r _ this
        simp at this
    · rintro hn ⟨⟨n, va⟩, e, h1, h2⟩
      apply hn
      cases e
      simp only [List.mem_cons]
      right
      rw [List.takeWhile_append_of_pos (by intro c hc; simp; rintro rfl; exact h2 hc)]
      simp [List.takeWhile_cons_of_pos]

example : Variable.parse c!"$x\ny=1" = .err .missingEquals := (C37_missing_equals _).2 (by decide)

/-- Reading a definition does not panic. -/
theorem C37_no_panic (l : Str) : Variable.parse l ≠ .panic := variable_no_panic l

example : Variable.parse c!"$\n=" ≠ .panic := C37_no_panic _

/-- A variable is read back from its printed definition exactly if its name has no `=` and no line feed. -/
theorem C37_round_trip (v : Variable) : Variable.parse v.shw = .ok v ↔ '=' ∉ v.name ∧ '\n' ∉ v.name := by
  rw [C37_grammar]
  exact ⟨fun h => h.2, fun h => ⟨rfl, h⟩⟩

example : Variable.parse (Variable.mk c!"x y" c!"=$\n").shw = .ok ⟨c!"x y", c!"=$\n"⟩ := (C37_round_trip _).2 ⟨by decide, by decide⟩

/-- What is read is printed as the very same line. -/
theorem C37_stable {l : Str} {v : Variable} (h : Variable.parse l = .ok v) : v.shw = l := ((C37_grammar l v).1 h).1.symm

example : Variable.parse c!"$x y=1=2" = .ok ⟨c!"x y", c!"1=2"⟩ := by decide
example : Variable.parse c!" $x=1" = .err .missingHeader ∧ Variable.parse c!"$x" = .err .missingEquals := by decide
/-- A name with `=` comes back as another variable. -/
theorem C37_false_equals : ∃ v w : Variable, Variable.parse v.shw = .ok w ∧ v ≠ w :=
  ⟨⟨c!"a=b", c!"1"⟩, ⟨c!"a", c!"b=1"⟩, by decide, by decide⟩

/-! ## C38: variables in commands -/

/-- The steps of printing with several variables: each one replaces its value by its name, in order. -/
inductive ReplacedAll : List Variable → Str → Str → Prop
  | nil (s : Str) : ReplacedAll [] s s
  | cons {v : Variable} {vs : List Variable} {s t u : Str} (h : Replaced v.value ('$' :: v.name) s t) (hs : ReplacedAll vs t u) :
      ReplacedAll (v :: vs) s u

section
variable {D : Type} [DecLib D]

/-- Printing a command with variables keeps its name and replaces, for each variable in order, the occurrences of the
value in the rest by `$` and the name. -/
theorem C38_text (c : Command D) (vars : List Variable) (hv : ∀ v ∈ vars, v.value ≠ []) :
    ∃ h b t, c.shw = h ++ ',' :: b ∧ ',' ∉ h ∧ c.toStrVars vars = h ++ ',' :: t ∧ ReplacedAll vars b t := by
  refine ⟨c.header, c.body, Command.variableReplace c.body vars, by simp [Command.shw, Command.toStrVars, Command.variableReplace],
    ?_, by simp [Command.toStrVars], ?_⟩
  · intro hm
    exact absurd (header_ascii c _ hm).2.1 (by decide)
  · generalize c.body = b
    induction vars generalizing b with
    | nil => exact .nil _
    | cons v vs ih =>
      rw [Command.variableReplace]
      refine .cons ?_ (ih (fun w hw => hv w (by simp [hw])) _)
      obtain ⟨a, val, ev⟩ := List.exists_cons_of_ne_nil (hv v (by simp))
      split
      · rw [ev, replace_cons]; exact replaced a val _ _ b (Nat.le_refl _)
      · rename_i hc
        rw [contains_iff] at hc
        exact ⟨[b], by simp, rfl, rfl, by simp, by intro p hp; simp at hp; subst hp; exact hc⟩

variable [UniLib]

/-- Events printed with variables are read back with the same variables, if the variables can be told apart and no
command has a `$` in its text. -/
theorem C38_round_trip {v : Nat} {vars : List Variable} {evs : List (Event D)} (hv : VarsOK vars) (hn : ∀ x ∈ vars, VarWritable x)
    (h : ∀ e ∈ evs, EvWritable v e ∧ ∀ x ∈ listing 1 (cmdsOf e), '$' ∉ x.2.shw) :
    ∃ s, Events.shwVars v vars evs = some s ∧ Events.parseVars v vars s = .ok (evs.map quoted) := by
  obtain ⟨s, h1, h2, -⟩ := events_text (v := v) (vars := vars) (evs := evs) (fun e he =>
    ⟨(h e he).1.1, cmdsRead_vars hv hn (h e he).1.2 (h e he).2⟩) nofun
  exact ⟨s, h1, h2⟩

/-- Exactly what is read with variables: command lines are read after the references in them are replaced by the values, in
the order of the variables. -/
theorem C38_read (v : Nat) (vars : List Variable) (s : Str) (evs : List (Event D)) :
    Events.parseVars v vars s = .ok evs ↔ SectionReads v (CmdLineVars vars) (contentLines (lines s)) evs := events_vars_reads

section
attribute [local instance] asciiUni
example : ∃ evs : List (Event Dec96), SectionReads 14 (CmdLineVars [⟨c!"x", c!"320"⟩, ⟨c!"one", c!"1"⟩])
    (contentLines (lines c!"Sprite,Foreground,12,a.png,1,2\n S,0,$x,,$one$x")) evs :=
  ⟨_, (C38_read _ _ _ _).1 (by rfl)⟩
end

/-- Variables make no difference in reading a section without `$`. -/
theorem C38_no_dollar (v : Nat) (vars : List Variable) {s : Str} (hs : '$' ∉ s) :
    (Events.parseVars v vars s : Res (LErr EvErr) (List (Event D))) = Events.parse v s := by
  have hl : ∀ l ∈ lines s, '$' ∉ l := by
    intro l hl hm
    have := lines_allC (f := fun c => !(c == '$')) (s := s)
      (fun c hc => by simp only [Bool.not_eq_true', beq_eq_false_iff_ne]; rintro rfl; exact hs hc) l hl _ hm
    simp at this
  have hcmd : ∀ l : Str, '$' ∉ l → (cmdParse vars l : Res EvErr (Command D)) = cmdParse [] l := by
    intro l hl
    unfold cmdParse
    cases hw : withoutHeader l with
    | none => rfl
    | some nh =>
      have : '$' ∉ nh := by
        intro hm
        apply hl
        unfold withoutHeader at hw
        split at hw
        · rename_i i _
          have aux : ∀ (n : Nat) (l nh : Str), sliceFrom n l = some nh → ∀ c ∈ nh, c ∈ l := by
            intro n l
            induction l generalizing n with
            | nil =>
              intro nh h c hc
              cases n <;> simp [sliceFrom] at h
              subst h; exact hc
            | cons d l ih =>
              intro nh h c hc
              cases n with
              | zero => simp [sliceFrom] at h; subst h; exact hc
              | succ n =>
                rw [sliceFrom] at h
                split at h
                · exact List.mem_cons_of_mem _ (ih _ _ h c hc)
                · cases h
          exact aux _ _ _ hw _ hm
        · cases hw; exact hm
      simp only
      rw [substVars_none this, substVars_none this]
  have hloop : ∀ (ls : List Str), (∀ l ∈ ls, '$' ∉ l) → ∀ (n : Nat) (evs : List (Event D)), loop v vars n evs ls = loop v [] n evs ls := by
    intro ls
    induction ls with
    | nil => intro _ n evs; rfl
    | cons l ls ih =>
      intro h n evs
      have hst : step v vars evs l = step v [] evs l := by
        have : ∀ k, stepCmd vars evs l k = stepCmd [] evs l k := by
          intro k
          unfold stepCmd
          rw [hcmd l (h l (by simp))]
        simp only [step, this]
      rw [loop, loop, hst]
      simp only [ih fun x hx => h x (by simp [hx])]
  unfold Events.parse Events.parseVars
  exact hloop _ hl _ _

end

section
attribute [local instance] asciiUni

/-- A sprite with one scale command of the given value. -/
private def spr (x : Str) : List (Event Dec96) :=
  [.object ⟨.foreground, ⟨.inr 12, true⟩, ⟨.ofStr c!"1", .ofStr c!"2"⟩, .sprite c!"a.png", [.mk (some 320) (.scale .linear none (.ofStr x) [])]⟩]

example : Events.shwVars 14 [⟨c!"x", c!"320"⟩, ⟨c!"one", c!"1"⟩] (spr c!"1320") =
    some c!"Sprite,Foreground,12,a.png,1,2\n S,0,$x,,$one$x" := by decide
example : VarsOK [⟨c!"x", c!"320"⟩, ⟨c!"one", c!"1"⟩] :=
  ⟨by decide, by decide, by decide, by
    refine List.pairwise_cons.2 ⟨?_, List.pairwise_cons.2 ⟨by simp, .nil⟩⟩
    intro w hw c hc
    have : w = ⟨c!"one", c!"1"⟩ := by simpa using hw
    subst this
    have : c = '1' := by simpa using hc.symm
    subst this
    decide⟩
example : (Events.parseVars 14 [⟨c!"x", c!"320"⟩, ⟨c!"one", c!"1"⟩] c!"Sprite,Foreground,12,a.png,1,2\n S,0,$x,,$one$x" :
    Res (LErr EvErr) (List (Event Dec96))) = .ok (spr c!"1320") := by rfl

/-- An empty value: the name is put between all characters, and the text is not accepted. -/
theorem C38_false_empty : ∃ vars s, ∃ e : LErr EvErr, Events.shwVars 14 vars (spr c!"1") = some s ∧
    (Events.parseVars 14 [] s : Res _ (List (Event Dec96))) = .err e :=
  ⟨[⟨c!"a", []⟩], c!"Sprite,Foreground,12,a.png,1,2\n S,$a0$a,$a3$a2$a0$a,$a,$a1$a", _, by decide, by rfl⟩

/-- A name that is the beginning of another one: the value changes. -/
theorem C38_false_prefix : ∃ vars s, Events.shwVars 14 vars (spr c!"7") = some s ∧
    Events.parseVars 14 vars s = .ok (spr c!"5b") :=
  ⟨[⟨c!"a", c!"5"⟩, ⟨c!"ab", c!"7"⟩], c!"Sprite,Foreground,12,a.png,1,2\n S,0,320,,$ab", by decide, by rfl⟩

/-- A value that occurs in the name of a variable before it: the value changes. -/
theorem C38_false_overlap : ∃ vars s, Events.shwVars 14 vars (spr c!"5") = some s ∧
    Events.parseVars 14 vars s = .ok (spr c!"$x7") :=
  ⟨[⟨c!"x7", c!"5"⟩, ⟨c!"b", c!"7"⟩], c!"Sprite,Foreground,12,a.png,1,2\n S,0,320,,$x$b", by decide, by rfl⟩

/-- A command that has a `$` in its text: the value changes. -/
theorem C38_false_dollar : ∃ vars s, Events.shwVars 14 vars (spr c!"$a") = some s ∧
    Events.parseVars 14 vars s = .ok (spr c!"5") :=
  ⟨[⟨c!"a", c!"5"⟩], c!"Sprite,Foreground,12,a.png,1,2\n S,0,320,,$a", by decide, by rfl⟩

/-- References in the line of a sprite itself are not replaced. -/
theorem C38_not_in_first_line : ∃ evs : List (Event Dec96),
    Events.parseVars 14 [⟨c!"x", c!"320"⟩] c!"Sprite,Foreground,Centre,a.png,$x,2" = .ok evs ∧
      Events.shw 14 evs = some c!"Sprite,Foreground,Centre,a.png,$x,2" :=
  ⟨_, by rfl, by decide⟩

end

/-! ## C55: what is accepted as a storyboard -/

section
variable {D : Type} [DecLib D] [UniLib]

/-- A text is accepted exactly if the lines before the first section are blank or comments, and the sections are at most one
`Variables` and one `Events`, each accepted; the variables are used in the events only if they come first. -/
theorem C55_exact (v : Nat) (s : Str) (o : Osb D) : Osb.parse v s = .ok (some o) ↔
    14 ≤ v ∧ ∃ pre xs rest, Layout s pre xs rest ∧ (∀ l ∈ pre, Ignorable l) ∧ OsbReads v xs o := by
  by_cases hv : v < 14
  · have : (Osb.parse v s : Res _ (Option (Osb D))) = .ok none := by unfold Osb.parse; rw [if_pos hv]
    rw [this]
    simp only [Res.ok.injEq, reduceCtorEq, false_iff]
    omega
  · have hv : 14 ≤ v := by omega
    obtain ⟨pre, xs, rest, hl⟩ := layout_exists s
    constructor
    · intro h
      refine ⟨hv, pre, xs, rest, hl, ?_⟩
      rcases pre_cases pre with hp | ⟨a, l, b, rfl, ha, hb⟩
      · refine ⟨hp, ?_⟩
        rw [osb_parse_eq hv hl hp] at h
        rw [osbReads_steps, ← osbLoop_ok (line := pre.length) seenOK_nil]
        cases hr : osbLoop v xs pre.length [] (⟨none, none⟩ : Osb D) with
        | ok o' => rw [hr] at h; cases h; rfl
        | err e => rw [hr] at h; cases h
        | panic => rw [hr] at h; cases h
      · rw [osb_parse_bad hv hl ha hb] at h; cases h
    · rintro ⟨-, pre', xs', rest', hl', hp, hr⟩
      rw [osb_parse_eq hv hl' hp, (osbLoop_ok seenOK_nil).2 (osbReads_steps.1 hr)]
      rfl

example : ∃ pre xs rest, Layout c!"[Variables]\n$x=1\n" pre xs rest ∧ (∀ l ∈ pre, Ignorable l) ∧
    OsbReads 14 xs (⟨some [⟨c!"x", c!"1"⟩], none⟩ : Osb Dec96) :=
  ((C55_exact 14 _ _).1 (by rfl)).2

/-- Every other outcome: an unexpected line before the sections, or what happens at the first section that is not read. -/
theorem C55_rejected (v : Nat) (s : Str) (r : Res (LErr OsbErr) (Option (Osb D))) (hr : r.isOk = false) : Osb.parse v s = r ↔
    14 ≤ v ∧ ∃ pre xs rest, Layout s pre xs rest ∧
      ((∃ a l b, pre = a ++ l :: b ∧ (∀ x ∈ a, Ignorable x) ∧ ¬Ignorable l ∧ r = .err ⟨a.length, .unexpectedLine⟩) ∨
       ((∀ l ∈ pre, Ignorable l) ∧ ∃ p x q, ∃ o : Osb D, xs = p ++ x :: q ∧ OsbReads v p o ∧
          OsbStops v (nameLine pre.length p x) (bodyLine pre.length p x) o x r)) := by
  have lift : ∀ {line bline : Nat} {o : Osb D} {x : Sect} {r' : Res (LErr OsbErr) (Osb D)},
      OsbStops v line bline o x r' ↔ OsbStops v line bline o x (r' >>= fun o => .ok (some o)) ∧ r'.isOk = false := by
    intro line bline o x r'
    constructor
    · intro h; cases h with
      | dupVariables a b => exact ⟨.dupVariables a b, rfl⟩
      | dupEvents a b => exact ⟨.dupEvents a b, rfl⟩
      | unknown a b => exact ⟨.unknown a b, rfl⟩
      | variables a b c => exact ⟨.variables a b c, rfl⟩
      | events a b c => exact ⟨.events a b c, rfl⟩
      | panic a b c => exact ⟨.panic a b c, rfl⟩
    · rintro ⟨h, h'⟩
      cases r' with
      | ok _ => cases h'
      | err e =>
        have h : OsbStops v line bline o x (.err e : Res _ (Option (Osb D))) := h
        cases h with
        | dupVariables a b => exact .dupVariables a b
        | dupEvents a b => exact .dupEvents a b
        | unknown a b => exact .unknown a b
        | variables a b c => exact .variables a b c
        | events a b c => exact .events a b c
      | panic =>
        have h : OsbStops v line bline o x (.panic : Res _ (Option (Osb D))) := h
        cases h with
        | panic a b c => exact .panic a b c
  obtain ⟨r', rfl, hr'⟩ : ∃ r' : Res (LErr OsbErr) (Osb D), r = (r' >>= fun o => .ok (some o)) ∧ r'.isOk = false := by
    cases r with
    | ok _ => cases hr
    | err e => exact ⟨.err e, rfl, rfl⟩
    | panic => exact ⟨.panic, rfl, rfl⟩
  by_cases hv : v < 14
  · have : (Osb.parse v s : Res _ (Option (Osb D))) = .ok none := by unfold Osb.parse; rw [if_pos hv]
    rw [this]
    constructor
    · intro h; rw [← h] at hr; cases hr
    · rintro ⟨h, -⟩; omega
  · have hv : 14 ≤ v := by omega
    obtain ⟨pre, xs, rest, hl⟩ := layout_exists s
    have hinj : ∀ {a b : Res (LErr OsbErr) (Osb D)}, b.isOk = false →
        ((a >>= fun o => Res.ok (some o)) = (b >>= fun o => Res.ok (some o)) ↔ a = b) := by
      intro a b hb
      cases b with
      | ok _ => cases hb
      | err e =>
        cases a with
        | ok _ => constructor <;> (intro h; cases h)
        | err e' => exact ⟨fun h => by cases h; rfl, fun h => by cases h; rfl⟩
        | panic => constructor <;> (intro h; cases h)
      | panic =>
        cases a with
        | ok _ => constructor <;> (intro h; cases h)
        | err e' => constructor <;> (intro h; cases h)
        | panic => exact ⟨fun _ => rfl, fun _ => rfl⟩
    have loopiff : ∀ {pre : List Str} {xs : List Sect} {rest : Str}, Layout s pre xs rest → (∀ l ∈ pre, Ignorable l) →
        (Osb.parse v s = (r' >>= fun o => .ok (some o)) ↔ ∃ p x q, ∃ o : Osb D, xs = p ++ x :: q ∧ OsbReads v p o ∧
          OsbStops v (nameLine pre.length p x) (bodyLine pre.length p x) o x (r' >>= fun o => .ok (some o) : Res _ (Option (Osb D)))) := by
      intro pre xs rest hl hp
      rw [osb_parse_eq hv hl hp, hinj hr', osbLoop_stops seenOK_nil hr']
      simp only [osbReads_steps, lift (r' := r'), hr', and_true]
    constructor
    · intro h
      refine ⟨hv, pre, xs, rest, hl, ?_⟩
      rcases pre_cases pre with hp | ⟨a, l, b, rfl, ha, hb⟩
      · exact .inr ⟨hp, (loopiff hl hp).1 h⟩
      · rw [osb_parse_bad hv hl ha hb] at h
        exact .inl ⟨a, l, b, rfl, ha, hb, h.symm⟩
    · rintro ⟨-, pre', xs', rest', hl', ⟨a, l, b, rfl, ha, hb, h⟩ | ⟨hp, h⟩⟩
      · rw [osb_parse_bad hv hl' ha hb, h]
      · exact (loopiff hl' hp).2 h

/-- Reading a storyboard panics exactly if, after lines that are ignored and at most one `Variables` section that is read,
the content of the `Events` section panics. In particular an empty section is no reason to panic. -/
theorem C55_panic (v : Nat) (s : Str) : (Osb.parse v s : Res _ (Option (Osb D))) = .panic ↔
    14 ≤ v ∧ ∃ pre p x q rest, ∃ o : Osb D, Layout s pre (p ++ x :: q) rest ∧ (∀ l ∈ pre, Ignorable l) ∧ OsbReads v p o ∧
      x.name = c!"Events" ∧ o.events = none ∧
      (Events.parseVars v (o.variables.getD []) x.body : Res _ (List (Event D))) = .panic := by
  rw [C55_rejected v s .panic rfl]
  refine and_congr_right fun _ => ?_
  constructor
  · rintro ⟨pre, xs, rest, hl, ⟨a, l, b, -, -, -, h⟩ | ⟨hp, p, x, q, o, rfl, hr, hs⟩⟩
    · cases h
    · cases hs with
      | panic a b c => exact ⟨pre, p, x, q, rest, o, hl, hp, hr, a, b, c⟩
  · rintro ⟨pre, p, x, q, rest, o, hl, hp, hr, a, b, c⟩
    exact ⟨pre, _, rest, hl, .inr ⟨hp, p, x, q, o, rfl, hr, .panic a b c⟩⟩

example : (Osb.parse 14 c!"[Events]\n10,x" : Res _ (Option (Osb Dec96))) = .panic ∧ ∃ pre p x q rest, ∃ o : Osb Dec96,
    Layout c!"[Events]\n10,x" pre (p ++ x :: q) rest ∧ (∀ l ∈ pre, Ignorable l) ∧ OsbReads 14 p o ∧ x.name = c!"Events" ∧
      o.events = none ∧ (Events.parseVars 14 (o.variables.getD []) x.body : Res _ (List (Event Dec96))) = .panic :=
  ⟨by rfl, ((C55_panic 14 _).1 (by rfl)).2⟩

/-! ## C39: round trip of storyboards -/

/-- Before version 14 nothing is read and nothing is written. -/
theorem C39_old {v : Nat} (hv : v < 14) (s : Str) (o : Osb D) :
    (Osb.parse v s : Res _ (Option (Osb D))) = .ok none ∧ Osb.shw v o = some none := by
  constructor
  · unfold Osb.parse; rw [if_pos hv]
  · unfold Osb.shw; rw [if_pos hv]

/-- From version 14 on, reading never gives nothing. -/
theorem C39_some {v : Nat} (hv : 14 ≤ v) (s : Str) : (Osb.parse v s : Res _ (Option (Osb D))) ≠ .ok none := by
  obtain ⟨pre, xs, rest, hl⟩ := layout_exists s
  rcases pre_cases pre with hp | ⟨a, l, b, rfl, ha, hb⟩
  · rw [osb_parse_eq hv hl hp]
    cases osbLoop v xs pre.length [] (⟨none, none⟩ : Osb D) <;> (intro h; cases h)
  · rw [osb_parse_bad hv hl ha hb]; intro h; cases h

/-- C07: so storyboards are read and written exactly from version 14 on. -/
theorem C07_storyboard (v : Nat) (s : Str) (o : Osb D) :
    ((Osb.parse v s : Res _ (Option (Osb D))) = .ok none ↔ v < 14) ∧ (Osb.shw v o = some none ↔ v < 14) := by
  refine ⟨⟨fun h => Nat.lt_of_not_le fun hv => C39_some hv s h, fun hv => (C39_old hv s o).1⟩,
    ⟨fun h => Nat.lt_of_not_le fun hv => ?_, fun hv => (C39_old hv s o).2⟩⟩
  unfold Osb.shw at h
  rw [if_neg (by omega)] at h
  cases he : o.events with
  | none => simp [he] at h
  | some es => cases hs : Events.shwVars v (o.variables.getD []) es <;> simp [he, hs] at h

example : (Osb.parse 13 c!"[Events]\n10,x" : Res _ (Option (Osb Dec96))) = .ok none ∧ Osb.shw 13 (⟨none, none⟩ : Osb Dec96) = some none :=
  ⟨(C07_storyboard 13 _ ⟨none, none⟩).1.2 (by decide), (C07_storyboard 13 [] _).2.2 (by decide)⟩

/-- A storyboard that can be written prints to a text that is read as the same variables and events, with quotes around the
paths that need them. -/
theorem C39_round_trip {v : Nat} (hv : 14 ≤ v) {o : Osb D} (h : OsbWritable v o) :
    ∃ s, Osb.shw v o = some (some s) ∧ Osb.parse v s = .ok (some { o with events := o.events.map (List.map quoted) }) :=
  osb_round_trip hv h

/-- If no path needs quotes, the very same storyboard is read. -/
theorem C39_round_trip_plain {v : Nat} (hv : 14 ≤ v) {o : Osb D} (h : OsbWritable v o)
    (hq : ∀ es, o.events = some es → ∀ e ∈ es, ∀ f, pathOf e = some f → PathPlain f) :
    ∃ s, Osb.shw v o = some (some s) ∧ Osb.parse v s = .ok (some o) := by
  obtain ⟨s, h1, h2⟩ := C39_round_trip hv h
  refine ⟨s, h1, ?_⟩
  obtain ⟨vars, evs⟩ := o
  cases evs with
  | none => exact h2
  | some es =>
    rw [show es = es.map quoted by
      conv => lhs; rw [← List.map_id es]
      exact (List.map_congr_left fun e he => quoted_plain (hq es rfl e he)).symm]
    exact h2

/-- Saving a storyboard that was read, whose sections are not written as empty texts, whose variables can be told apart and
whose commands have no `$` left, gives a text that is accepted and saved as the same text. -/
theorem C39_stable {v : Nat} {s : Str} {o : Osb D} (hs : NoBareCR s) (h : Osb.parse v s = .ok (some o))
    (h1 : o.variables ≠ some []) (h2 : ∀ es, o.events = some es → es.filter (writtenIn v) ≠ [])
    (h3 : ∀ vs es, o.variables = some vs → o.events = some es → VarsOK vs ∧ ∀ e ∈ es, ∀ x ∈ listing 1 (cmdsOf e), '$' ∉ x.2.shw) :
    ∃ t o', Osb.shw v o = some (some t) ∧ Osb.parse v t = .ok (some o') ∧ Osb.shw v o' = some (some t) ∧
      o' = { o with events := o.events.map fun es => (es.filter (writtenIn v)).map quoted } := by
  have hv : 14 ≤ v := by
    apply Classical.byContradiction
    intro hv
    rw [(C39_old (D := D) (by omega) s ⟨none, none⟩).1] at h; cases h
  obtain ⟨w1, w2⟩ := osb_read_writable (cr := false) (fun _ => hs) h
  obtain ⟨vars, evs⟩ := o
  have hw : OsbWritable v (⟨vars, evs.map (List.filter (writtenIn v))⟩ : Osb D) := by
    refine ⟨fun vs e => ⟨fun h => h1 (by rw [e, h]), w1 vs e⟩, ?_, ?_⟩
    · intro es e
      cases evs with
      | none => cases e
      | some es0 =>
        cases e
        exact ⟨h2 es0 rfl, fun e he => w2 es0 rfl e (List.mem_filter.1 he).1 (List.mem_filter.1 he).2⟩
    · intro vs es e e'
      cases evs with
      | none => cases e'
      | some es0 =>
        cases e'
        obtain ⟨k1, k2⟩ := h3 vs es0 e rfl
        exact ⟨k1, fun e he => k2 e (List.mem_filter.1 he).1⟩
  obtain ⟨t, t1, t2⟩ := osb_round_trip hv hw
  refine ⟨t, ⟨vars, evs.map fun es => (es.filter (writtenIn v)).map quoted⟩, ?_, ?_, ?_, rfl⟩
  · rw [← t1]
    unfold Osb.shw
    cases evs with
    | none => rfl
    | some es => simp only [Option.map_some, shwVars_filter]
  · rw [t2]
    cases evs <;> rfl
  · rw [← t1]
    unfold Osb.shw
    cases evs with
    | none => rfl
    | some es => simp only [Option.map_some, shwVars_quoted]

end

section
attribute [local instance] asciiUni

private def osbText : Str := c!"[Variables]\n$x=320\n$one=1\n\n[Events]\nSprite,Foreground,12,a.png,1,2\n S,0,$x,,$one$x"

example : (Osb.parse 14 osbText : Res _ (Option (Osb Dec96))) = .ok (some ⟨some [⟨c!"x", c!"320"⟩, ⟨c!"one", c!"1"⟩], some (spr c!"1320")⟩) := by rfl
example : Osb.shw 14 (⟨some [⟨c!"x", c!"320"⟩, ⟨c!"one", c!"1"⟩], some (spr c!"1320")⟩ : Osb Dec96) = some (some osbText) := by decide

/-- An empty list of variables is written as an empty section, which swallows the next header. -/
theorem C39_false_empty : ∃ s, ∃ e : LErr OsbErr, Osb.shw 14 (⟨some [], some (spr c!"1")⟩ : Osb Dec96) = some (some s) ∧
    (Osb.parse 14 s : Res _ (Option (Osb Dec96))) = .err e :=
  ⟨c!"[Variables]\n\n\n[Events]\nSprite,Foreground,12,a.png,1,2\n S,0,320,,1", _, by decide, by rfl⟩

/-- Variables after the events are not used in reading, but they are written first: saving a file changes its events. -/
theorem C39_false_order : ∃ s t, ∃ o o' : Osb Dec96, Osb.parse 14 s = .ok (some o) ∧ Osb.shw 14 o = some (some t) ∧
    Osb.parse 14 t = .ok (some o') ∧ o.events = some (spr c!"$a") ∧ o'.events = some (spr c!"5") :=
  ⟨c!"[Events]\nSprite,Foreground,12,a.png,1,2\n S,0,320,,$a\n[Variables]\n$a=5\n",
    c!"[Variables]\n$a=5\n\n[Events]\nSprite,Foreground,12,a.png,1,2\n S,0,320,,$a", _, _, by rfl, by decide, by rfl, by rfl, by rfl⟩

end

section
attribute [local instance] asciiUni

/-- Two variables and a sprite that uses them. -/
def osbVars : List Variable := [⟨c!"x", c!"320"⟩, ⟨c!"one", c!"1"⟩]
def osbExample : Osb Dec96 := ⟨some osbVars, some (spr c!"1320")⟩

theorem osbVars_ok : VarsOK osbVars :=
  ⟨by decide, by decide, by decide, by
    refine List.pairwise_cons.2 ⟨?_, List.pairwise_cons.2 ⟨by simp, .nil⟩⟩
    intro w hw c hc
    have : w = ⟨c!"one", c!"1"⟩ := by simpa using hw
    subst this
    have : c = '1' := by simpa using hc.symm
    subst this
    decide⟩

theorem osbExample_read : Osb.parse 14 osbText = .ok (some osbExample) := by rfl

private theorem spr_ok : ∀ e ∈ spr c!"1320", EvWritable 14 e ∧ ∀ x ∈ listing 1 (cmdsOf e), '$' ∉ x.2.shw := by
  intro e he
  refine ⟨(osb_read_writable (cr := false) (fun _ => ?_) osbExample_read).2 _ rfl e he ?_, ?_⟩
  · intro l hl
    exact (by decide : ∀ l ∈ lines osbText, '\r' ∉ l) l hl
  · have he := List.mem_singleton.1 he
    subst he
    rfl
  · have he := List.mem_singleton.1 he
    subst he
    intro x hx
    have hx := List.mem_singleton.1 hx
    subst hx
    decide

private theorem osbVars_write : ∀ x ∈ osbVars, VarWritable x :=
  (osb_read_writable (cr := false) (fun _ => by
    intro l hl
    exact (by decide : ∀ l ∈ lines osbText, '\r' ∉ l) l hl) osbExample_read).1 _ rfl

theorem osbExample_ok : OsbWritable 14 osbExample where
  vars := fun vs h => by cases h; exact ⟨by decide, osbVars_write⟩
  events := fun es h => by cases h; exact ⟨by simp [spr], fun e he => (spr_ok e he).1⟩
  apart := fun vs es h h' => by cases h; cases h'; exact ⟨osbVars_ok, fun e he => (spr_ok e he).2⟩

example : ∃ s, Osb.shw 14 osbExample = some (some s) ∧
    Osb.parse 14 s = .ok (some { osbExample with events := osbExample.events.map (List.map quoted) }) :=
  C39_round_trip (by decide) osbExample_ok
example : ∃ s, Osb.shw 14 osbExample = some (some s) ∧ Osb.parse 14 s = .ok (some osbExample) :=
  C39_round_trip_plain (by decide) osbExample_ok fun es h e he f hf => by
    cases h
    have he := List.mem_singleton.1 he
    subst he
    cases hf
    decide

example : ∃ s, Events.shwVars 14 osbVars (spr c!"1320") = some s ∧ Events.parseVars 14 osbVars s = .ok ((spr c!"1320").map quoted) :=
  C38_round_trip osbVars_ok osbVars_write spr_ok

/-- `320` of the command is written as `$x`, but the name of the command is not touched. -/
example : ∃ h b t, (.mk (some 320) (.scale .linear none (.ofStr c!"1320") []) : Command Dec96).shw = h ++ ',' :: b ∧ ',' ∉ h ∧
    (.mk (some 320) (.scale .linear none (.ofStr c!"1320") []) : Command Dec96).toStrVars osbVars = h ++ ',' :: t ∧
    ReplacedAll osbVars b t :=
  C38_text _ osbVars (by decide)

/-- Before version 14 the same text is no storyboard. -/
example : (Osb.parse 13 osbText : Res _ (Option (Osb Dec96))) = .ok none ∧ Osb.shw 13 osbExample = some none :=
  C39_old (by decide) _ _
example : (Osb.parse 14 [] : Res _ (Option (Osb Dec96))) ≠ .ok none := C39_some (by decide) _

/-- A storyboard refused for a line before its sections. -/
example : (Osb.parse 14 c!"\nx\n[Events]" : Res _ (Option (Osb Dec96))) = .err ⟨1, .unexpectedLine⟩ :=
  (C55_rejected 14 _ _ rfl).2 ⟨by decide, [[], c!"x"], [⟨[], c!"Events", [], []⟩], [], layout_iff.2 ⟨by decide, sections_iff.1 (by decide)⟩,
    .inl ⟨[[]], c!"x", [], rfl, fun l hl => by cases List.mem_singleton.1 hl; exact .inl rfl, (by
      rintro (h | ⟨_, h⟩)
      · revert h; decide
      · rw [show trim c!"x" = c!"x" by decide] at h; cases h), rfl⟩⟩

end

end Osu
