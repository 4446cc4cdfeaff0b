/-
C91: file paths in a build for Windows.
-/
import Verif.Model.Windows
import Verif.Spec.Windows
import Verif.Props.Paths

namespace Osu
open SB Parser

/-! ## Slashes only -/

/-- The path with slashes in place of backslashes. -/
def fwd (p : Str) : Str := p.map fun c => if c = '\\' then '/' else c

theorem fwd_append (a b : Str) : fwd (a ++ b) = fwd a ++ fwd b := List.map_append ..

theorem fwd_cons (c : Char) (a : Str) : fwd (c :: a) = (if c = '\\' then '/' else c) :: fwd a := rfl

theorem winSep_iff {c : Char} : winSep c = true ↔ Slash c := by simp [winSep, Slash]

theorem slash_fwd {c : Char} : Slash (if c = '\\' then '/' else c) ↔ Slash c := by
  unfold Slash
  split
  · rename_i h; simp [h]
  · rfl

theorem fwd_slash {c : Char} : (if c = '\\' then '/' else c) = '/' ↔ Slash c := by
  unfold Slash
  split
  · rename_i h; simp [h]
  · rename_i h; simp [h]

theorem splitWin_fwd (p : Str) : splitWin p = splitOnC '/' (fwd p) := by
  induction p with
  | nil => rfl
  | cons c p ih =>
    rw [fwd_cons, splitWin, splitOnC, ih]
    by_cases h : Slash c
    · rw [if_pos (winSep_iff.2 h), if_pos (fwd_slash.2 h)]
    · rw [if_neg (fun h' => h (winSep_iff.1 h')), if_neg (fun h' => h (fwd_slash.1 h'))]
      have : c ≠ '\\' := fun e => h (.inr e)
      rw [if_neg this]
      rfl

theorem local_fwd {p : Str} : Local (fwd p) ↔ Local p := by
  match p with
  | [] => exact Iff.rfl
  | [c] => constructor <;> intro _ c d r e <;> simp [fwd] at e
  | c :: d :: r =>
    constructor
    · intro h c' d' r' e h1 h2
      cases e
      exact h _ _ _ rfl (slash_fwd.2 h1) (slash_fwd.2 h2)
    · intro h c' d' r' e h1 h2
      cases e
      exact h _ _ _ rfl (slash_fwd.1 h1) (slash_fwd.1 h2)

theorem winDrive_on {d : Char} {r : Str} (h : d.isAlpha = true) : winDrive (d :: ':' :: r) = (some d.toUpper, r) := by
  rw [winDrive, if_pos h]

theorem winDrive_off {p : Str} (h : ¬OnDrive p) : winDrive p = (none, p) := by
  unfold winDrive
  split
  · rename_i d r
    exact if_neg fun h' => h ⟨d, r, h', rfl⟩
  · rfl

theorem parts_fwd (r : Str) : (⟨r.head?.any winSep, (splitWin r).head? = some c!".", (splitWin r).filter fun x => x ≠ [] ∧ x ≠ c!"."⟩ : PathParts)
    = pathParts (fwd r) := by
  unfold pathParts
  rw [← splitWin_fwd]
  congr 1
  cases r with
  | nil => rfl
  | cons c r =>
    rw [fwd_cons]
    have : startsWith ((if c = '\\' then '/' else c) :: fwd r) ['/'] = decide ((if c = '\\' then '/' else c) = '/') := by
      generalize (if c = '\\' then '/' else c) = x
      rw [Bool.eq_iff_iff]
      simp only [startsWith, List.isPrefixOf, Bool.and_true, beq_iff_eq, decide_eq_true_iff]
      exact eq_comm
    rw [this, Bool.eq_iff_iff, decide_eq_true_iff, fwd_slash]
    exact winSep_iff

theorem winParts_on {d : Char} {r : Str} (h : d.isAlpha = true) : winParts (d :: ':' :: r) = ⟨some d.toUpper, pathParts (fwd r)⟩ := by
  unfold winParts
  rw [winDrive_on h, ← parts_fwd]

theorem winParts_off {p : Str} (h : ¬OnDrive p) : winParts p = ⟨none, pathParts (fwd p)⟩ := by
  unfold winParts
  rw [winDrive_off h, ← parts_fwd]

theorem alpha_ne {d : Char} (h : d.isAlpha = true) : d ≠ '/' ∧ d ≠ '\\' := by
  constructor <;> rintro rfl <;> revert h <;> decide

theorem onDrive_fwd {p : Str} : OnDrive (fwd p) ↔ OnDrive p := by
  constructor
  · rintro ⟨d, r, h, e⟩
    match p with
    | [] => cases e
    | [c] => cases e
    | c :: c' :: p =>
      simp only [fwd_cons, List.cons.injEq] at e
      obtain ⟨e1, e2, -⟩ := e
      split at e1
      · subst e1; exact absurd rfl (alpha_ne h).1
      · split at e2
        · exact absurd e2 (by decide)
        · subst e1 e2; exact ⟨_, _, h, rfl⟩
  · rintro ⟨d, r, h, rfl⟩
    exact ⟨d, fwd r, h, by simp [fwd_cons, (alpha_ne h).2]⟩

/-! ## Steps keep the parts -/

theorem PathStep.fwd {p q : Str} (h : PathStep p q) : PathStep (fwd p) (fwd q) := by
  cases h with
  | double a b => simpa [fwd_append, fwd_cons] using PathStep.double (Osu.fwd a) (Osu.fwd b)
  | dot a b h =>
    have := PathStep.dot (Osu.fwd a) (Osu.fwd b) (by
      rcases h with rfl | ⟨b', rfl⟩
      · exact .inl rfl
      · exact .inr ⟨Osu.fwd b', rfl⟩)
    simpa [fwd_append, fwd_cons] using this
  | last a h =>
    have := PathStep.last (Osu.fwd q) (by simpa [Osu.fwd] using h)
    simpa [fwd_append, fwd_cons, Osu.fwd] using this

theorem SamePath.fwd {p q : Str} (h : SamePath p q) : SamePath (fwd p) (fwd q) := by
  induction h with
  | refl => exact .refl _
  | step h _ ih => exact .step h.fwd ih
  | back h _ ih => exact .back h.fwd ih

theorem SamePath.winParts {s t : Str} (h : ∀ a, SamePath (a ++ '/' :: s) (a ++ '/' :: t)) (a : Str) :
    winParts (a ++ '/' :: s) = winParts (a ++ '/' :: t) := by
  by_cases hd : ∃ d r, Char.isAlpha d = true ∧ a = d :: ':' :: r
  · obtain ⟨d, r, hd, rfl⟩ := hd
    simp only [List.cons_append]
    rw [winParts_on hd, winParts_on hd, (h r).fwd.parts]
  · have off : ∀ s, ¬OnDrive (a ++ '/' :: s) := by
      rintro s ⟨d, r, h1, e⟩
      match a with
      | [] => cases e; exact absurd h1 (by decide)
      | [c] => cases e
      | c :: c' :: a => cases e; exact hd ⟨_, _, h1, rfl⟩
    rw [winParts_off (off s), winParts_off (off t), (h a).fwd.parts]

theorem fwd_fwd (p : Str) : fwd (fwd p) = fwd p := by
  unfold fwd
  rw [List.map_map]
  congr 1
  funext c
  simp only [Function.comp_apply]
  split <;> simp_all

theorem winParts_fwd (p : Str) : winParts (fwd p) = winParts p := by
  by_cases h : OnDrive p
  · obtain ⟨d, r, h, rfl⟩ := h
    rw [fwd_cons, fwd_cons, if_neg (alpha_ne h).2, if_neg (by decide), winParts_on h, winParts_on h, fwd_fwd]
  · rw [winParts_off h, winParts_off (fun h' => h (onDrive_fwd.1 h')), fwd_fwd]

theorem toUpper_alpha {d : Char} (h : d.isAlpha = true) : d.toUpper.isAlpha = true ∧ d.toUpper.toUpper = d.toUpper := by
  by_cases hu : d.isUpper = true
  · have : d.toUpper = d := by
      unfold Char.toUpper
      rw [dif_neg]
      simp only [Char.isUpper, Bool.and_eq_true, decide_eq_true_iff] at hu
      intro h'
      have h1 := hu.2
      have h2 := h'.1
      simp only [ge_iff_le, UInt32.le_iff_toNat_le] at h1 h2
      revert h1 h2
      simp
      omega
    rw [this]; exact ⟨h, this⟩
  · have hl : d.isLower = true := by
      simp only [Char.isAlpha, Bool.or_eq_true] at h
      exact h.resolve_left hu
    simp only [Char.isLower, Bool.and_eq_true, decide_eq_true_iff] at hl
    obtain ⟨h1, h2⟩ := hl
    have hn : d.toNat ∈ (List.range 26).map (· + 97) := by
      simp only [ge_iff_le, UInt32.le_iff_toNat_le] at h1 h2
      simp at h1 h2
      refine List.mem_map.2 ⟨d.toNat - 97, List.mem_range.2 (by omega), by omega⟩
    have all : ∀ n ∈ (List.range 26).map (· + 97), (Char.ofNat n).toUpper.isAlpha = true ∧ (Char.ofNat n).toUpper.toUpper = (Char.ofNat n).toUpper := by
      decide
    have := all _ hn
    rwa [Char.ofNat_toNat] at this

theorem WinStep.parts {p q : Str} (h : WinStep p q) : winParts p = winParts q := by
  cases h with
  | slash a b =>
    rw [← winParts_fwd, ← winParts_fwd (a ++ '/' :: b)]
    congr 1
    simp [fwd_append, fwd_cons]
  | double a b => exact SamePath.winParts (fun a => .step (.double a b) (.refl _)) a
  | dot a b => exact SamePath.winParts (fun a => .step (.dot a _ (.inr ⟨b, rfl⟩)) (.step (.double a b) (.refl _))) a
  | lastDot a => exact SamePath.winParts (fun a => .step (.dot a _ (.inl rfl)) (.refl _)) a
  | last a h hd =>
    by_cases hd' : OnDrive q
    · obtain ⟨d, r, h1, rfl⟩ := hd'
      have hr : r ≠ [] := by
        rintro rfl
        rw [hd d rfl] at h1; cases h1
      simp only [List.cons_append]
      rw [winParts_on h1, winParts_on h1, (PathStep.last r hr).fwd.parts]
    · have off : ¬OnDrive (q ++ ['/']) := by
        rintro ⟨d, r, h1, e⟩
        match q with
        | [] => cases e
        | [c] => cases e
        | c :: c' :: q => cases e; exact hd' ⟨_, _, h1, rfl⟩
      rw [winParts_off hd', winParts_off off, (PathStep.last q h).fwd.parts]
  | drive d r h => rw [winParts_on h, winParts_on (toUpper_alpha h).1, (toUpper_alpha h).2]

theorem SameWin.parts {p q : Str} (h : SameWin p q) : winParts p = winParts q := by
  induction h with
  | refl => rfl
  | step h _ _ ih => exact h.parts.trans ih
  | back h _ _ ih => exact h.parts.symm.trans ih

/-! ## Every path has the spelling its parts give -/

theorem SameWin.trans {p q r : Str} (h : SameWin p q) (h' : SameWin q r) : SameWin p r := by
  induction h with
  | refl => exact h'
  | step h hq _ ih => exact .step h hq (ih h')
  | back h hq _ ih => exact .back h hq (ih h')

theorem SameWin.symm {p q : Str} (h : SameWin p q) (hp : Local p) : SameWin q p := by
  induction h with
  | refl => exact .refl _
  | step h hq _ ih => exact (ih hq).trans (.back h hp (.refl _))
  | back h hq _ ih => exact (ih hq).trans (.step h hp (.refl _))

theorem same_fwd (b : Str) : ∀ a, Local (a ++ b) → SameWin (a ++ b) (a ++ fwd b) := by
  induction b with
  | nil => intro a _; exact .refl _
  | cons c b ih =>
    intro a ha
    have step : SameWin (a ++ c :: b) (a ++ (if c = '\\' then '/' else c) :: b) ∧ Local (a ++ (if c = '\\' then '/' else c) :: b) := by
      split
      · rename_i h; subst h
        have : Local (a ++ '/' :: b) := by
          have := local_fwd.2 ha
          have e : fwd (a ++ '\\' :: b) = fwd (a ++ '/' :: b) := by simp [fwd_append, fwd_cons]
          rw [e] at this
          exact local_fwd.1 this
        exact ⟨.step (.slash a b) this (.refl _), this⟩
      · exact ⟨.refl _, ha⟩
    refine step.1.trans ?_
    have := ih (a ++ [if c = '\\' then '/' else c]) (by simpa using step.2)
    simpa [fwd_cons] using this

/-- A step on slashes behind a prefix. -/
theorem PathStep.behind {p q : Str} (h : PathStep p q) (pre : Str) (hp : Local (pre ++ p)) (hq : Local (pre ++ q))
    (hd : ∀ d, pre ++ q = [d, ':'] → Char.isAlpha d = false) : SameWin (pre ++ p) (pre ++ q) := by
  cases h with
  | double a b =>
    have := WinStep.double (pre ++ a) b
    simp only [List.append_assoc] at this
    exact .step this hq (.refl _)
  | dot a b h =>
    rcases h with rfl | ⟨b', rfl⟩
    · have := WinStep.lastDot (pre ++ a)
      simp only [List.append_assoc] at this
      exact .step this hq (.refl _)
    · have h1 := WinStep.dot (pre ++ a) b'
      have h2 := WinStep.double (pre ++ a) b'
      simp only [List.append_assoc] at h1 h2
      have hm : Local (pre ++ (a ++ '/' :: b')) := by
        intro c d r e hc hd
        match hx : pre ++ a with
        | [] =>
          simp only [List.append_eq_nil_iff] at hx
          obtain ⟨rfl, rfl⟩ := hx
          exact hq '/' '/' b' rfl (.inl rfl) (.inl rfl)
        | [x] =>
          rw [← List.append_assoc, hx] at e
          cases e
          rw [← List.append_assoc, hx] at hp
          exact hp _ _ _ rfl hc (.inl rfl)
        | x :: y :: z =>
          rw [← List.append_assoc, hx] at e
          cases e
          rw [← List.append_assoc, hx] at hp
          exact hp _ _ _ rfl hc hd
      exact .step h1 hm (.back h2 hq (.refl _))
  | last a h =>
    have := WinStep.last (pre ++ q) (by simp [h]) hd
    simp only [List.append_assoc] at this
    exact .step this hq (.refl _)

theorem PathSteps.behind {I : Str → Prop} {pre : Str} (keep : ∀ p q, I p → PathStep p q → I q)
    (safe : ∀ p, I p → Local (pre ++ p)) (nd : ∀ p d, I p → p ≠ [] → pre ++ p = [d, ':'] → Char.isAlpha d = false)
    {p q : Str} (h : PathSteps p q) (hp : I p) : SameWin (pre ++ p) (pre ++ q) := by
  induction h with
  | refl => exact .refl _
  | @step p q r h _ ih =>
    have hq := keep _ _ hp h
    have hne : q ≠ [] := by
      cases h with
      | double => simp
      | dot => simp
      | last a h => exact h
    exact (h.behind pre (safe _ hp) (safe _ hq) fun d e => nd _ d hq hne e).trans (ih hq)

theorem PathStep.head {p q : Str} (h : PathStep p q) : p.head? = q.head? := by
  cases h with
  | double a b => cases a <;> rfl
  | dot a b h => cases a <;> rfl
  | last a h =>
    cases q with
    | nil => exact absurd rfl h
    | cons c a => rfl

/-- The spelling with the parts. -/
def WinParts.shw (x : WinParts) : Str := (match x.drive with | some d => [d, ':'] | none => []) ++ x.parts.shw

theorem local_head {p : Str} (h : ∀ c, p.head? = some c → ¬Slash c) : Local p := by
  intro c d r e hc
  subst e
  exact absurd hc (h c rfl)

theorem PathStep.onDrive {p q : Str} (h : PathStep p q) (hq : OnDrive q) : OnDrive p := by
  obtain ⟨d, r, h1, e⟩ := hq
  cases h with
  | double a b =>
    match a with
    | [] => cases e; exact absurd h1 (by decide)
    | [c] => cases e
    | c :: c' :: a => cases e; exact ⟨_, _, h1, rfl⟩
  | dot a b h =>
    match a with
    | [] => cases e; exact absurd h1 (by decide)
    | [c] => cases e
    | c :: c' :: a => cases e; exact ⟨_, _, h1, rfl⟩
  | last a h => subst e; exact ⟨_, _, h1, rfl⟩

theorem splitOnC_sub (c : Char) (p : Str) : ∀ x ∈ splitOnC c p, ∀ d ∈ x, d ∈ p := by
  induction p with
  | nil => intro x hx d hd; simp [splitOnC] at hx; subst hx; cases hd
  | cons e p ih =>
    intro x hx d hd
    rw [splitOnC] at hx
    split at hx
    · rcases List.mem_cons.1 hx with rfl | hx
      · cases hd
      · exact .tail _ (ih x hx d hd)
    · cases hs : splitOnC c p with
      | nil => exact absurd hs (splitOnC_ne_nil _ _)
      | cons y ys =>
        rw [hs] at hx ih
        rcases List.mem_cons.1 hx with rfl | hx
        · rcases List.mem_cons.1 hd with rfl | hd
          · exact .head _
          · exact .tail _ (ih y (.head _) d hd)
        · exact .tail _ (ih x (.tail _ hx) d hd)

theorem same_shw_on {d : Char} (h : d.isAlpha = true) (r : Str) :
    SameWin (d :: ':' :: r) (winParts (d :: ':' :: r)).shw := by
  rw [winParts_on h]
  have hl : ∀ {d : Char} (r : Str), d.isAlpha = true → Local (d :: ':' :: r) := by
    intro d r h
    refine local_head fun c e => ?_
    cases e
    rintro (rfl | rfl)
    · exact (alpha_ne h).1 rfl
    · exact (alpha_ne h).2 rfl
  have hu := (toUpper_alpha h).1
  have h1 := same_fwd (d :: ':' :: r) [] (hl r h)
  simp only [List.nil_append, fwd_cons, if_neg (alpha_ne h).2, if_neg (show ':' ≠ '\\' by decide)] at h1
  refine h1.trans (.step (.drive d _ h) (hl _ hu) ?_)
  exact PathSteps.behind (I := fun _ => True) (pre := [d.toUpper, ':']) (fun _ _ _ _ => trivial) (fun p _ => hl p hu)
    (fun p _ _ hne e => absurd (List.cons.inj (List.cons.inj e).2).2 hne) (same_shw (fwd r)) trivial

theorem same_shw_off {p : Str} (hp : Local p) (h : ¬OnDrive p) : SameWin p (winParts p).shw := by
  rw [winParts_off h]
  have h1 := same_fwd p [] hp
  simp only [List.nil_append] at h1
  refine h1.trans ?_
  have hb : ∀ c ∈ fwd p, c ≠ '\\' := by
    intro c hc
    obtain ⟨d, -, rfl⟩ := List.mem_map.1 hc
    split
    · decide
    · assumption
  have hl := local_fwd.2 hp
  have hd : ¬OnDrive (fwd p) := fun h' => h (onDrive_fwd.1 h')
  generalize fwd p = s at hb hl hd
  show SameWin s (pathParts s).shw
  by_cases hs : ∃ r, s = '/' :: r
  · obtain ⟨r, rfl⟩ := hs
    have hr : ∀ c, r.head? = some c → ¬Slash c := by
      intro c e
      cases r with
      | nil => cases e
      | cons x r => cases e; exact hl _ _ _ rfl (.inl rfl)
    have h2 := PathSteps.behind (I := fun r => ∀ c, r.head? = some c → ¬Slash c) (pre := ['/'])
      (fun p q hp hs c e => hp c (hs.head.trans e))
      (fun p hp => by
        intro c d r e _
        cases e
        exact hp _ rfl)
      (fun p d _ _ e => by cases e; decide) (same_shw r) hr
    refine SameWin.trans h2 ?_
    have hroot : (pathParts r).root = false := by
      cases r with
      | nil => rfl
      | cons c r =>
        have : c ≠ '/' := fun e => hr c rfl (.inl e)
        simp [pathParts, startsWith, List.isPrefixOf, Ne.symm this]
    have hroot' : (pathParts ('/' :: r)).root = true := by simp [pathParts, startsWith, List.isPrefixOf]
    have hnames : (pathParts ('/' :: r)).names = (pathParts r).names := by
      simp [pathParts, splitOnC]
    unfold PathParts.shw
    rw [hroot, hroot', hnames]
    have hsub : ∀ x ∈ (pathParts r).names, x ≠ [] ∧ ∀ c ∈ x, ¬Slash c := by
      intro x hx
      have hx := List.mem_filter.1 hx
      have hne : x ≠ [] := by
        have := hx.2
        simp at this
        exact this.1
      refine ⟨hne, fun c hc => ?_⟩
      rintro (rfl | rfl)
      · have := splitOnC_chars '/' r x hx.1 '/' hc
        simp at this
      · exact hb '\\' (.tail _ (splitOnC_sub _ _ x hx.1 _ hc)) rfl
    generalize (pathParts r).names = ns at hsub
    cases hh : (pathParts r).here with
    | false =>
      simp only [Bool.false_eq_true, if_false, if_true]
      cases ns with
      | nil => exact .refl _
      | cons x xs => exact .refl _
    | true =>
      simp only [Bool.false_eq_true, if_false, if_true]
      cases ns with
      | nil => exact .step (.lastDot []) (by intro a b r e; cases e) (.refl _)
      | cons x xs =>
        refine .step (.dot [] (x ++ slashed xs)) ?_ (.refl _)
        obtain ⟨hne, hx⟩ := hsub x (.head _)
        cases x with
        | nil => exact absurd rfl hne
        | cons c x =>
          intro a b r e _
          cases e
          exact hx _ (.head _)
  · have hs : ∀ c, s.head? = some c → ¬Slash c := by
      intro c e
      cases s with
      | nil => cases e
      | cons x s =>
        cases e
        rintro (rfl | rfl)
        · exact hs ⟨_, rfl⟩
        · exact hb '\\' (.head _) rfl
    exact PathSteps.behind (I := fun r => (∀ c, r.head? = some c → ¬Slash c) ∧ ¬OnDrive r) (pre := [])
      (fun p q hp hs => ⟨fun c e => hp.1 c (hs.head.trans e), fun h => hp.2 (hs.onDrive h)⟩)
      (fun p hp => local_head hp.1)
      (fun p d hp _ e => by
        simp only [List.nil_append] at e
        subst e
        cases ha : Char.isAlpha d with
        | false => rfl
        | true => exact absurd ⟨_, _, ha, rfl⟩ hp.2) (same_shw s) ⟨hs, hd⟩

theorem same_shw_win {p : Str} (hp : Local p) : SameWin p (winParts p).shw := by
  by_cases h : OnDrive p
  · obtain ⟨d, r, h, rfl⟩ := h
    exact same_shw_on h r
  · exact same_shw_off hp h

/-- C91: on Windows paths are equal exactly if they are spellings of the same path: they differ in the kind of the slashes, in slashes
next to other ones, single dots between slashes or at the end, slashes at the end other than that of a drive, and the case of
the letter of the drive. -/
theorem C91_equal {p q : Str} (hp : Local p) (hq : Local q) : winEq p q = true ↔ SameWin p q := by
  unfold winEq
  rw [decide_eq_true_iff]
  refine ⟨fun h => ?_, SameWin.parts⟩
  have := same_shw_win hp
  rw [h] at this
  exact this.trans ((same_shw_win hq).symm hq)

example : SameWin c!"c:\\sb/.\\a.png" c!"C:/sb/a.png" := (C91_equal (by intro _ _ _ e; cases e; rintro (h | h) <;> cases h)
  (by intro _ _ _ e; cases e; rintro (h | h) <;> cases h)).1 (by decide)

/-! ## Names of frames -/

theorem winTail_fwd {t : Str} : PathTail (fwd t) ↔ WinTail t := by
  constructor
  · intro h
    generalize ht : fwd t = u at h
    induction h generalizing t with
    | nil =>
      cases t with
      | nil => exact .nil
      | cons c t => cases ht
    | slash _ ih =>
      cases t with
      | nil => cases ht
      | cons c t =>
        simp only [fwd_cons, List.cons.injEq] at ht
        exact .slash (fwd_slash.1 ht.1) (ih ht.2)
    | dot _ ih =>
      match t with
      | [] => cases ht
      | [c] => simp [fwd] at ht
      | c :: c' :: t =>
        simp only [fwd_cons, List.cons.injEq] at ht
        have : c' = '.' := by
          have := ht.2.1
          split at this
          · exact absurd this (by decide)
          · exact this
        subst this
        exact .dot (fwd_slash.1 ht.1) (ih ht.2.2)
  · intro h
    induction h with
    | nil => exact .nil
    | slash hc _ ih => rw [fwd_cons, fwd_slash.2 hc]; exact .slash ih
    | dot hc _ ih => rw [fwd_cons, fwd_slash.2 hc, fwd_cons, if_neg (by decide)]; exact .dot ih

theorem fwd_name {x y : Str} (h : fwd x = y) (hy : lacks '/' y = true) : x = y ∧ ∀ c ∈ x, ¬Slash c := by
  have hx : ∀ c ∈ x, ¬Slash c := by
    intro c hc hs
    have : (if c = '\\' then '/' else c) ∈ y := by rw [← h]; exact List.mem_map_of_mem (f := fun c => if c = '\\' then '/' else c) hc
    rw [fwd_slash.2 hs] at this
    have := List.all_eq_true.1 hy _ this
    simp at this
  refine ⟨?_, hx⟩
  rw [← h]
  clear h hy
  induction x with
  | nil => rfl
  | cons c x ih =>
    rw [fwd_cons, if_neg fun e => hx c (.head _) (.inr e), ← ih fun d hd => hx d (.tail _ hd)]

theorem fwd_of_name {x : Str} (hx : ∀ c ∈ x, ¬Slash c) : fwd x = x ∧ lacks '/' x = true := by
  constructor
  · induction x with
    | nil => rfl
    | cons c x ih =>
      rw [fwd_cons, if_neg fun e => hx c (.head _) (.inr e), ih fun d hd => hx d (.tail _ hd)]
  · refine List.all_eq_true.2 fun c hc => ?_
    have : c ≠ '/' := fun e => hx c hc (.inl e)
    simpa using this

theorem named_fwd {r name : Str} : NamedPath (fwd r) name ↔ ∃ dir tail, r = dir ++ name ++ tail ∧
    (dir = [] ∨ ∃ a c, Slash c ∧ dir = a ++ [c]) ∧ (∀ c ∈ name, ¬Slash c) ∧ name ≠ [] ∧ name ≠ c!"." ∧ name ≠ c!".." ∧ WinTail tail := by
  constructor
  · intro h
    generalize hr : fwd r = u at h
    cases h with
    | @mk dir name tail hd hn h0 h1 h2 ht =>
      obtain ⟨r1, r2, rfl, e1, e2⟩ := List.map_eq_append_iff.1 hr
      obtain ⟨r3, r4, rfl, e3, e4⟩ := List.map_eq_append_iff.1 e1
      obtain ⟨rfl, hx⟩ := fwd_name e4 hn
      refine ⟨r3, r2, rfl, ?_, hx, h0, h1, h2, winTail_fwd.1 ?_⟩
      · rcases hd with rfl | ⟨d, rfl⟩
        · exact .inl (List.map_eq_nil_iff.1 e3)
        · obtain ⟨a, b, rfl, -, e⟩ := List.map_eq_append_iff.1 e3
          obtain ⟨c, rfl, e⟩ := List.map_eq_singleton_iff.1 e
          exact .inr ⟨a, c, fwd_slash.1 (by simpa using e), rfl⟩
      · exact (show fwd r2 = tail from e2) ▸ ht
  · rintro ⟨dir, tail, rfl, hd, hn, h0, h1, h2, ht⟩
    obtain ⟨e, hl⟩ := fwd_of_name hn
    rw [fwd_append, fwd_append, e]
    refine .mk ?_ hl h0 h1 h2 (winTail_fwd.2 ht)
    rcases hd with rfl | ⟨a, c, hc, rfl⟩
    · exact .inl rfl
    · refine .inr ⟨fwd a, ?_⟩
      rw [fwd_append, fwd_cons, fwd_slash.2 hc]; rfl

theorem winFileName_eq {p : Str} : winFileName p = pathFileName (fwd (winDrive p).2) := by
  unfold winFileName pathFileName
  have : (winParts p).parts.names = (pathParts (fwd (winDrive p).2)).names := by
    rw [← parts_fwd]
    unfold winParts
    rfl
  rw [this]
  rfl

theorem winFileName_iff {p name : Str} : winFileName p = some name ↔ NamedWin p name := by
  rw [winFileName_eq, pathFileName_iff, named_fwd]
  by_cases h : OnDrive p
  · obtain ⟨d, r, h, rfl⟩ := h
    rw [winDrive_on h]
    constructor
    · rintro ⟨dir, tail, rfl, hd, hn, h0, h1, h2, ht⟩
      rcases hd with rfl | ⟨a, c, hc, rfl⟩
      · exact .mk (dir := [d, ':']) (.drive h) hn h0 h1 h2 ht
      · exact .mk (dir := d :: ':' :: a ++ [c]) (.dir hc) hn h0 h1 h2 ht
    · intro hp
      generalize hs : d :: ':' :: r = s at hp
      cases hp with
      | @mk dir name tail hd hn h0 h1 h2 ht =>
        have hna : ∀ x, ¬Slash x → x ≠ '/' := fun x hx e => hx (.inl e)
        cases hd with
        | nil h' =>
          exfalso
          match name with
          | [] => exact h0 rfl
          | [c] =>
            cases ht with
            | nil => cases hs
            | slash hc _ =>
              cases hs
              rcases hc with hc | hc <;> cases hc
            | dot hc _ =>
              cases hs
              rcases hc with hc | hc <;> cases hc
          | c :: c' :: name =>
            cases hs
            exact h' ⟨_, _, h, rfl⟩
        | drive h' =>
          cases hs
          exact ⟨[], tail, rfl, .inl rfl, hn, h0, h1, h2, ht⟩
        | @dir c a name hc =>
          match a with
          | [] =>
            simp only [List.nil_append, List.cons_append, List.cons.injEq] at hs
            obtain ⟨rfl, -⟩ := hs
            rcases hc with rfl | rfl <;> exact absurd h (by decide)
          | [x] =>
            cases hs
            rcases hc with hc | hc <;> cases hc
          | x :: y :: a =>
            cases hs
            exact ⟨a ++ [c], tail, rfl, .inr ⟨a, c, hc, rfl⟩, hn, h0, h1, h2, ht⟩
  · rw [winDrive_off h]
    constructor
    · rintro ⟨dir, tail, rfl, hd, hn, h0, h1, h2, ht⟩
      rcases hd with rfl | ⟨a, c, hc, rfl⟩
      · refine .mk (dir := []) (.nil ?_) hn h0 h1 h2 ht
        rintro ⟨d, r, hd, rfl⟩
        exact h ⟨d, r ++ tail, hd, rfl⟩
      · exact .mk (dir := a ++ [c]) (.dir hc) hn h0 h1 h2 ht
    · intro hp
      cases hp with
      | @mk dir name tail hd hn h0 h1 h2 ht =>
        refine ⟨dir, tail, rfl, ?_, hn, h0, h1, h2, ht⟩
        cases hd with
        | nil => exact .inl rfl
        | @drive d name hd => exact absurd ⟨d, name ++ tail, hd, rfl⟩ h
        | @dir c a name hc => exact .inr ⟨a, c, hc, rfl⟩

theorem named_self {p name : Str} (h : NamedWin p name) : NamedPath name name := by
  cases h with
  | mk hd hn h0 h1 h2 ht =>
    have := NamedPath.mk (dir := []) (tail := []) (.inl rfl) (fwd_of_name hn).2 h0 h1 h2 .nil
    simpa using this

theorem frames_win {p name : Str} (h : NamedWin p name) (n : Nat) : frameFileNamesWin p n = frameFileNames name n := by
  unfold frameFileNamesWin frameFileNames
  rw [winFileName_iff.2 h, pathFileName_iff.2 (named_self h)]
  rfl

/-- C91: on Windows asking for the names of the frames panics exactly if the path has no file name. -/
theorem C91_frames_defined (path : Str) (n : Nat) : frameFileNamesWin path n = none ↔ ¬∃ name, NamedWin path name := by
  constructor
  · rintro h ⟨name, hp⟩
    rw [frames_win hp] at h
    exact (C61_defined name n).1 h ⟨name, named_self hp⟩
  · intro h
    cases hp : winFileName path with
    | none => unfold frameFileNamesWin; rw [hp]
    | some name => exact absurd ⟨name, winFileName_iff.1 hp⟩ h

example : frameFileNamesWin c!"C:\\" 2 = none ∧ ¬∃ name, NamedWin c!"C:\\" name := ⟨by decide, (C91_frames_defined _ 2).1 (by decide)⟩

/-- C91: on Windows the names of the frames are the file name with the number of the frame in front of the extension; the directory, which
can end with a backslash, and the drive are left out. -/
theorem C91_frame_names {path name a b : Str} (n : Nat) (hp : NamedWin path name) (hs : FrameSlot name a b) :
    frameFileNamesWin path n = some ((List.range n).map fun i => a ++ natToStr i ++ b) := by
  rw [frames_win hp]
  exact C61_names n (named_self hp) hs

example : frameFileNamesWin c!"sb\\run.png" 12 = some ((List.range 12).map fun i => c!"run" ++ natToStr i ++ c!".png") :=
  C91_frame_names 12 (.mk (dir := c!"sb\\") (name := c!"run.png") (tail := []) (.dir (a := c!"sb") (.inr rfl))
    (by simp [Slash]) (by decide) (by decide) (by decide) .nil) (.ext (stem := c!"run") (ext := c!"png") (by decide) (by decide))

/-- C91: on Windows `Sprite::new` refuses exactly the paths that start with a drive and a separator. -/
theorem C91_sprite_new (p : FilePath) : ((Sprite.newWin p : Option (ObjectType D)) = none ↔ ∃ d c r, Char.isAlpha d = true ∧ Slash c ∧ p = d :: ':' :: c :: r) ∧
    ∀ o : ObjectType D, Sprite.newWin p = some o → o = .sprite p := by
  unfold Sprite.newWin
  refine ⟨?_, fun o => by split <;> intro h <;> cases h; rfl⟩
  have : (if winAbsolute p = true then none else some (ObjectType.sprite p : ObjectType D)) = none ↔ winAbsolute p = true := by
    split <;> simp_all
  rw [this]
  unfold winAbsolute
  by_cases h : OnDrive p
  · obtain ⟨d, r, h, rfl⟩ := h
    unfold winParts
    rw [winDrive_on h]
    simp only [Option.isSome_some, Bool.true_and]
    cases r with
    | nil => simp
    | cons c r =>
      simp only [List.head?_cons, Option.any_some, winSep_iff, List.cons.injEq, true_and]
      exact ⟨fun hc => ⟨d, c, r, h, hc, rfl, rfl, rfl⟩, fun ⟨_, _, _, _, hc, _, e, _⟩ => e ▸ hc⟩
  · unfold winParts
    rw [winDrive_off h]
    simp only [Option.isSome_none, Bool.false_and, Bool.false_eq_true, false_iff]
    rintro ⟨d, c, r, hd, -, rfl⟩
    exact h ⟨_, _, hd, rfl⟩

example : (Sprite.newWin c!"c:/a.png" : Option (ObjectType Dec96)) = none :=
  (C91_sprite_new _).1.2 ⟨'c', '/', c!"a.png", by decide, .inl rfl, rfl⟩

/-- C91: paths equal on Windows give the same names of frames there, and a sprite can be made of both or of neither. -/
theorem C91_same_use {p q : Str} (h : winEq p q = true) (n : Nat) : frameFileNamesWin p n = frameFileNamesWin q n ∧
    ((Sprite.newWin p : Option (ObjectType D)) = none ↔ (Sprite.newWin q : Option (ObjectType D)) = none) := by
  have h : winParts p = winParts q := of_decide_eq_true h
  constructor
  · unfold frameFileNamesWin winFileName
    rw [h]
  · unfold Sprite.newWin winAbsolute
    rw [h]
    split <;> simp

example : frameFileNamesWin c!"sb\\.\\run.png" 3 = frameFileNamesWin c!"sb/run.png\\" 3 := (C91_same_use (D := Dec96) (by decide) 3).1

/-! ## The same path on both systems -/

/-- C91: paths without drives that are equal elsewhere are equal on Windows. -/
theorem C91_equal_more {p q : Str} (hp : ¬OnDrive p) (hq : ¬OnDrive q) (h : pathEq p q = true) : winEq p q = true := by
  unfold winEq
  rw [winParts_off hp, winParts_off hq, ((C77_exact p q).1 h).fwd.parts]
  simp

example : winEq c!"sb\\a//b" c!"sb\\a/b/." = true :=
  C91_equal_more (by rintro ⟨d, r, -, e⟩; cases e) (by rintro ⟨d, r, -, e⟩; cases e) (by decide)

/-- C91: paths without drives and backslashes are equal on Windows exactly if they are elsewhere. -/
theorem C91_equal_same {p q : Str} (hp : ¬OnDrive p) (hq : ¬OnDrive q) (hbp : '\\' ∉ p) (hbq : '\\' ∉ q) : winEq p q = pathEq p q := by
  have e : ∀ {p : Str}, '\\' ∉ p → fwd p = p := by
    intro p h
    induction p with
    | nil => rfl
    | cons c p ih =>
      simp only [List.mem_cons, not_or] at h
      rw [fwd_cons, if_neg (Ne.symm h.1), ih h.2]
  unfold winEq pathEq
  rw [winParts_off hp, winParts_off hq, e hbp, e hbq]
  simp

example : winEq c!"sb/a" c!"sb/b" = pathEq c!"sb/a" c!"sb/b" :=
  C91_equal_same (by rintro ⟨d, r, -, e⟩; cases e) (by rintro ⟨d, r, -, e⟩; cases e) (by decide) (by decide)

/-- C91: the names of the frames are the same on both systems exactly if the path has the same file name on both. -/
theorem C91_frames_same (p : Str) (n : Nat) (hn : 0 < n) : frameFileNamesWin p n = frameFileNames p n ↔
    ∀ name, NamedWin p name ↔ NamedPath p name := by
  have slot : ∀ {name a b : Str}, FrameSlot name a b → FrameSlot (a ++ '0' :: b) (a ++ ['0']) b ∧ name = a ++ b := by
    intro name a b h
    cases h with
    | ext hs he =>
      refine ⟨?_, rfl⟩
      have := FrameSlot.ext (stem := a ++ ['0']) (by simp) he
      simpa using this
    | plain h =>
      refine ⟨.plain ?_, by simp⟩
      simp only [lacks, List.all_append, Bool.and_eq_true] at h ⊢
      exact ⟨h, by decide⟩
    | @hidden name h =>
      refine ⟨.hidden (name := name ++ ['0']) ?_, by simp⟩
      simp only [lacks, List.all_append, Bool.and_eq_true] at h ⊢
      exact ⟨h, by decide⟩
  have inj : ∀ {x y : Str}, NamedPath x x → NamedPath y y → frameFileNames x n = frameFileNames y n → x = y := by
    intro x y hx hy e
    obtain ⟨a, b, h1, -⟩ := C61_slot hx
    obtain ⟨a', b', h2, -⟩ := C61_slot hy
    rw [C61_names n hx h1, C61_names n hy h2] at e
    obtain ⟨m, rfl⟩ : ∃ m, n = m + 1 := ⟨n - 1, by omega⟩
    simp only [List.range_succ_eq_map, List.map_cons, Option.some.injEq, List.cons.injEq] at e
    have e := e.1
    obtain ⟨s1, rfl⟩ := slot h1
    obtain ⟨s2, rfl⟩ := slot h2
    have z : natToStr 0 = ['0'] := by decide
    rw [z, List.append_assoc, List.append_assoc] at e
    simp only [List.singleton_append] at e
    rw [e] at s1
    obtain ⟨u, rfl⟩ := slot_unique s1 s2
    rw [List.append_cancel_right u]
  have unix : ∀ {name}, NamedPath p name → frameFileNames p n = frameFileNames name n ∧ NamedPath name name := by
    intro name h
    have h' : NamedPath name name := by
      cases h with
      | mk hd hn h0 h1 h2 ht =>
        have := NamedPath.mk (dir := []) (tail := []) (.inl rfl) hn h0 h1 h2 .nil
        simpa using this
    obtain ⟨a, b, hs, -⟩ := C61_slot h
    exact ⟨by rw [C61_names n h hs, C61_names n h' hs], h'⟩
  constructor
  · intro e name
    constructor
    · intro h
      by_cases hu : ∃ y, NamedPath p y
      · obtain ⟨y, hy⟩ := hu
        rw [frames_win h, (unix hy).1] at e
        rwa [inj (named_self h) (unix hy).2 e]
      · have := (C61_defined p n).2 hu
        rw [← e] at this
        exact absurd ⟨name, h⟩ ((C91_frames_defined p n).1 this)
    · intro h
      by_cases hu : ∃ y, NamedWin p y
      · obtain ⟨y, hy⟩ := hu
        rw [frames_win hy, (unix h).1] at e
        rwa [← inj (named_self hy) (unix h).2 e]
      · have := (C91_frames_defined p n).2 hu
        rw [e] at this
        exact absurd ⟨name, h⟩ ((C61_defined p n).1 this)
  · intro h
    by_cases hu : ∃ y, NamedWin p y
    · obtain ⟨y, hy⟩ := hu
      rw [frames_win hy, (unix ((h y).1 hy)).1]
    · rw [(C91_frames_defined p n).2 hu, (C61_defined p n).2 fun ⟨y, hy⟩ => hu ⟨y, (h y).2 hy⟩]

example : ¬∀ name, NamedWin c!"a\\b.png" name ↔ NamedPath c!"a\\b.png" name :=
  fun h => absurd ((C91_frames_same c!"a\\b.png" 1 (by decide)).2 h) (by decide)

/-- C91: it is false that frames have the same names on both systems: with a backslash, as is usual in storyboards, only Windows
leaves out the directory. -/
theorem C91_false_frames : frameFileNamesWin c!"sb\\run.png" 2 = some [c!"run0.png", c!"run1.png"] ∧
    frameFileNames c!"sb\\run.png" 2 = some [c!"sb\\run0.png", c!"sb\\run1.png"] := by decide

/-- C91: it is false that `Sprite::new` refuses the same paths on both systems, or on Windows all that are not relative to the directory. -/
theorem C91_false_sprite : (Sprite.newWin c!"/a.png" : Option (ObjectType Dec96)) ≠ none ∧ (Sprite.new c!"/a.png" : Option (ObjectType Dec96)) = none ∧
    (Sprite.newWin c!"C:/a.png" : Option (ObjectType Dec96)) = none ∧ (Sprite.new c!"C:/a.png" : Option (ObjectType Dec96)) ≠ none ∧
    (Sprite.newWin c!"C:a.png" : Option (ObjectType Dec96)) ≠ none := by decide

/-- C91: it is false that paths equal on one system are equal on the other. -/
theorem C91_false_equal : winEq c!"a\\b" c!"a/b" = true ∧ pathEq c!"a\\b" c!"a/b" = false ∧
    winEq c!"C:/" c!"C:" = false ∧ pathEq c!"C:/" c!"C:" = true := by decide

/-- C91: it is false that on Windows paths of the same file are equal: the case of letters other than that of the drive counts. -/
theorem C91_false_case : winEq c!"c:\\a" c!"C:\\a" = true ∧ winEq c!"SB\\a.png" c!"sb\\a.png" = false := by decide

end Osu
