/-
Specification of what is said of a whole file that is refused.
-/
import Verif.Spec.FaultsVars
import Verif.Spec.FileText
import Verif.Spec.MessagesKV
import Verif.Spec.Messages

namespace Osu
open SB Ev Parser

/-- `LinesSay panics says s k m`: of the lines of `s` that are not blank, those before line `k` neither panic nor is
anything said of them; of line `k` it is said that `m`. -/
def LinesSay (panics : Str → Prop) (says : Str → Option Str) (s : Str) (k : Nat) (m : Str) : Prop :=
  ∃ pre l post, lines s = pre ++ l :: post ∧ pre.length = k ∧ (∀ x ∈ pre, Blank x ∨ ¬panics x ∧ says x = none) ∧
    ¬Blank l ∧ ¬panics l ∧ says l = some m

section
variable {D : Type} [DecLib D] [UniLib]

/-- What is said of a line after the events `evs`. -/
inductive EvLineSays (vars : List Variable) (evs : List (Event D)) (l : Str) : Str → Prop
  | event {p m : Str} {qs : List Str} (h0 : indentOf l = 0) (hc : (c!"//").isPrefixOf l = false)
      (hl : splitOnC ',' l = p :: qs) (h : evSays D p qs = some m) : EvLineSays vars evs l m
  | noOwner (h0 : 1 ≤ indentOf l) (h : ∀ e, evs.getLast? = some e → e.commands = none) :
      EvLineSays vars evs l c!"A storyboard command was used without defined sprite or animation sprite"
  | command {e : Event D} {t p m : Str} {qs : List Str} (h0 : 1 ≤ indentOf l) (he : evs.getLast? = some e)
      (hc : e.commands.isSome) (ht : StandsFor vars l t) (hl : cmdPieces t = p :: qs) (h : cmdSays p qs = some m) :
      EvLineSays vars evs l m
  | deep {e : Event D} {cs : List (Command D)} {c : Command D} (he : evs.getLast? = some e) (hc : e.commands = some cs)
      (hr : CmdLineVars vars l (indentOf l, c)) (h : maxLevel (SB.listing 1 cs) < indentOf l) :
      EvLineSays vars evs l (c!"Invalid indentation, expected " ++ natToStr (namedLevel cs) ++ c!", got " ++ natToStr (indentOf l))

variable (D) in
/-- What is said of the first faulty line of a list of events. -/
def EventsSay (v : Nat) (vars : List Variable) (s : Str) (k : Nat) (m : Str) : Prop :=
  ∃ pre l post, ∃ evs : List (Event D), lines s = pre ++ l :: post ∧ pre.length = k ∧
    SectionReads v (CmdLineVars vars) (contentLines pre) evs ∧ ¬Blank l ∧ ¬LinePanicsVars v vars evs l ∧ EvLineSays vars evs l m

variable (D) in
/-- What is said of the content of a section of a beatmap file. -/
def SectSays (v : Nat) (s : Str) (k : Nat) (m : Str) : SName → Prop
  | .general => KVSays (General D) (generalSays v) c!"Duplicate field were found in `General`" c!"The key doesn't exist in `General`" v s k m
  | .editor => KVSays (Editor D) editorSays c!"Duplicate field in `Editor`" c!"The key doesn't exist in `Editor`" v s k m
  | .metadata =>
    KVSays Metadata (fun _ _ => none) c!"There is a duplicate field in the `Metadata` section" c!"The key doesn't exist in `General`" v s k m
  | .difficulty =>
    KVSays (Difficulty D) (fun _ _ => none) c!"Duplicate field in `Difficulty`" c!"The key doesn't exist in `Difficulty`" v s k m
  | .events => EventsSay D v [] s k m
  | .timingPoints => LinesSay (fun l => TimeOverflows D v ((splitOnC ',' l).headD []))
      (fun l => firstFault (tpNamed v (splitOnC ',' l).length) (splitOnC ',' l)) s k m
  | .colours => ¬(3 ≤ v ∧ v ≤ 4) ∧ LinesSay (fun _ => False) (fun l => colourSays (trim l)) s k m
  | .hitobjects => LinesSay (fun l => HOPanics D v (splitOnC ',' l)) (fun l => hoSays D (splitOnC ',' l)) s k m

variable (D) in
/-- `FileSays D s k m`: of the text `s` of a beatmap file it is said, for the line that counts as line `k`, that `m`. -/
inductive FileSays (s : Str) : Nat → Str → Prop
  | noVersion (h : ¬∃ ws num r, Versioned s ws num r) :
      FileSays s 0 c!"File version defined wrong, expected `osu file format v..` at the start"
  | version {ws num r : Str} (hv : Versioned s ws num r) (hk : ¬∃ v, KnownVersion num v) :
      FileSays s 0 c!"Invalid file version, expected versions from 3 ~ 14"
  | line {ws num r l rest : Str} {v : Nat} {a b : List Str} {xs : List Sect} (hv : Versioned s ws num r) (hk : KnownVersion num v)
      (hl : Layout r (a ++ l :: b) xs rest) (ha : ∀ x ∈ a, Ignorable x) (hb : ¬Ignorable l) :
      FileSays s a.length c!"Unexpected line before any section"
  | repeated {ws num r rest : Str} {v : Nat} {pre : List Str} {p q : List Sect} {x : Sect} (hv : Versioned s ws num r)
      (hk : KnownVersion num v) (hl : Layout r pre (p ++ x :: q) rest) (hp : ∀ l ∈ pre, Ignorable l) (hr : AllRead D v p)
      (hx : x.name ∈ p.map Sect.name) :
      FileSays s (nameLine ((lines ws).length + pre.length) p x) c!"There are multiple sections defined as the same name"
  | unknown {ws num r rest : Str} {v : Nat} {pre : List Str} {p q : List Sect} {x : Sect} (hv : Versioned s ws num r)
      (hk : KnownVersion num v) (hl : Layout r pre (p ++ x :: q) rest) (hp : ∀ l ∈ pre, Ignorable l) (hr : AllRead D v p)
      (hx : ∀ n : SName, n.text ≠ x.name) :
      FileSays s (nameLine ((lines ws).length + pre.length) p x) c!"There is an unknown section"
  | content {ws num r rest m : Str} {v k : Nat} {pre : List Str} {p q : List Sect} {x : Sect} {n : SName} (hv : Versioned s ws num r)
      (hk : KnownVersion num v) (hl : Layout r pre (p ++ x :: q) rest) (hp : ∀ l ∈ pre, Ignorable l) (hr : AllRead D v p)
      (hx : x.name ∉ p.map Sect.name) (hn : n.text = x.name) (hm : SectSays D v x.body k m n) :
      FileSays s (k + bodyLine ((lines ws).length + pre.length) p x) m

variable (D) in
/-- The same for the text of a storyboard file. -/
inductive OsbSays (v : Nat) (s : Str) : Nat → Str → Prop
  | line {l rest : Str} {a b : List Str} {xs : List Sect} (hl : Layout s (a ++ l :: b) xs rest) (ha : ∀ x ∈ a, Ignorable x)
      (hb : ¬Ignorable l) : OsbSays v s a.length c!"Unexpected line before any section"
  | repeated {rest : Str} {pre : List Str} {p q : List Sect} {x : Sect} {o : Osb D} (hl : Layout s pre (p ++ x :: q) rest)
      (hp : ∀ l ∈ pre, Ignorable l) (hr : OsbReads v p o) (hx : x.name ∈ p.map Sect.name) :
      OsbSays v s (nameLine pre.length p x) c!"There are multiple sections defined as the same name"
  | unknown {rest : Str} {pre : List Str} {p q : List Sect} {x : Sect} {o : Osb D} (hl : Layout s pre (p ++ x :: q) rest)
      (hp : ∀ l ∈ pre, Ignorable l) (hr : OsbReads v p o) (hx : x.name ≠ c!"Variables") (hy : x.name ≠ c!"Events") :
      OsbSays v s (nameLine pre.length p x) c!"There is an unknown section"
  | variables {rest m : Str} {k : Nat} {pre : List Str} {p q : List Sect} {x : Sect} {o : Osb D} (hl : Layout s pre (p ++ x :: q) rest)
      (hp : ∀ l ∈ pre, Ignorable l) (hr : OsbReads v p o) (hx : x.name = c!"Variables") (hn : x.name ∉ p.map Sect.name)
      (hm : LinesSay (fun _ => False) variableSays x.body k m) : OsbSays v s (k + bodyLine pre.length p x) m
  | events {rest m : Str} {k : Nat} {pre : List Str} {p q : List Sect} {x : Sect} {o : Osb D} (hl : Layout s pre (p ++ x :: q) rest)
      (hp : ∀ l ∈ pre, Ignorable l) (hr : OsbReads v p o) (hx : x.name = c!"Events") (hn : x.name ∉ p.map Sect.name)
      (hm : EventsSay D v (o.variables.getD []) x.body k m) : OsbSays v s (k + bodyLine pre.length p x) m

end

end Osu
