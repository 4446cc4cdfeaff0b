/-
Lemmas on texts that are cut at the end of a line.
-/
import Verif.Spec.Cut
import Verif.Proof.Counts

namespace Osu
open SB Ev Parser

/-- Where a line feed of a text of two parts is. -/
theorem cut_at {a b t1 t2 : Str} (e : a ++ b = t1 ++ '\n' :: t2) :
    (∃ u, a = t1 ++ '\n' :: u ∧ t2 = u ++ b) ∨ ∃ u, t1 = a ++ u ∧ b = u ++ '\n' :: t2 := by
  rcases List.append_eq_append_iff.1 e with ⟨u, h1, h2⟩ | ⟨u, h1, h2⟩
  · exact .inr ⟨u, h1, h2⟩
  · cases u with
    | nil => exact .inr ⟨[], by rw [h1]; simp, by simpa using h2.symm⟩
    | cons c u =>
      rw [List.cons_append] at h2
      injection h2 with h3 h4
      subst h3
      exact .inl ⟨u, h1, h4⟩

theorem noLF_cut {a t u : Str} (h : '\n' ∉ a) (e : a = t ++ '\n' :: u) : False := h (by rw [e]; simp)

/-! ### Sections -/

theorem contentLines_cut {y z : Str} (h : NoEndCR y) :
    contentLines (lines (y ++ '\n' :: z)) = contentLines (lines y) ++ contentLines (lines z) := by
  rw [lines_append, contentLines_app]
  congr 1
  rw [contentLines_eq, contentLines_eq, filter_lines_snoc h]

theorem parseLines_cut {E α : Type} {f : Str → Res E α} {y z : Str} {l : List α} (hy : NoEndCR y) (h : parseLines f (y ++ '\n' :: z) = .ok l) :
    ∃ l1, parseLines f y = .ok l1 ∧ l1 <+: l := by
  rw [parseLines_ok_iff, ← contentLines_eq, contentLines_cut hy, List.map_append] at h
  obtain ⟨l1, l2, rfl, h1, h2⟩ := List.append_eq_map_iff.1 h
  exact ⟨l1, by rw [parseLines_ok_iff, ← contentLines_eq]; exact h1.symm, l2, rfl⟩

section
variable {D : Type}

mutual
theorem SB.Command.listing_take (c : Command D) (k n : Nat) : ∃ c' : Command D, c'.listing k = (c.listing k).take (n + 1) := by
  match c with
  | .mk t p =>
    cases hp : p with
    | loop a cs =>
      obtain ⟨cs', h⟩ := SB.listing_take cs (k + 1) n
      exact ⟨.mk t (.loop a cs'), by simp only [Command.listing, CmdProps.listing, Command.bare, List.take_succ_cons, h]⟩
    | trigger a b d cs =>
      obtain ⟨cs', h⟩ := SB.listing_take cs (k + 1) n
      exact ⟨.mk t (.trigger a b d cs'), by simp only [Command.listing, CmdProps.listing, Command.bare, List.take_succ_cons, h]⟩
    | _ => exact ⟨.mk t p, by rw [hp]; simp only [Command.listing, CmdProps.listing, Command.bare, List.take_succ_cons, List.take_nil]⟩
theorem SB.listing_take (cs : List (Command D)) (k n : Nat) : ∃ cs' : List (Command D), listing k cs' = (listing k cs).take n := by
  match cs with
  | [] => exact ⟨[], by simp [listing]⟩
  | c :: cs =>
    by_cases h : (c.listing k).length ≤ n
    · obtain ⟨cs', h'⟩ := SB.listing_take cs k (n - (c.listing k).length)
      exact ⟨c :: cs', by rw [listing, listing, List.take_append, h', List.take_of_length_le h]⟩
    · cases n with
      | zero => exact ⟨[], by simp [listing]⟩
      | succ n =>
        obtain ⟨c', h'⟩ := SB.Command.listing_take c k n
        refine ⟨[c'], ?_⟩
        rw [listing, listing, listing, List.append_nil, h', List.take_append, show n + 1 - (c.listing k).length = 0 by omega,
          List.take_zero, List.append_nil]
end

theorem cmdLines_take {R : Str → Nat × Command D → Prop} {ls : List Str} {xs : List (Nat × Command D)} (h : CmdLines R ls xs) (n : Nat) :
    CmdLines R (ls.take n) (xs.take n) := by
  induction h generalizing n with
  | nil => rw [List.take_nil, List.take_nil]; exact .nil
  | cons h _ ih =>
    cases n with
    | zero => exact .nil
    | succ n => exact .cons h (ih n)

theorem sectionReads_take [DecLib D] {v : Nat} {R : Str → Nat × Command D → Prop} {ls : List Str} {evs : List (Event D)}
    (h : SectionReads v R ls evs) (n : Nat) : ∃ evs1, SectionReads v R (ls.take n) evs1 ∧ evRows evs1 <+: evRows evs := by
  induction h generalizing n with
  | nil => exact ⟨[], by rw [List.take_nil]; exact .nil, List.prefix_refl _⟩
  | @cons hd cls ls e evs hh hc hs ih =>
    cases n with
    | zero => exact ⟨[], .nil, List.nil_prefix⟩
    | succ n =>
      rw [List.take_succ_cons]
      by_cases hn : cls.length ≤ n
      · obtain ⟨evs1, h1, h2⟩ := ih (n - cls.length)
        refine ⟨e :: evs1, ?_, ?_⟩
        · rw [List.take_append, List.take_of_length_le hn]; exact .cons hh hc h1
        · unfold evRows at h2 ⊢
          rw [List.flatMap_cons, List.flatMap_cons]
          exact (List.prefix_append_right_inj _).2 h2
      · have hz : (cls ++ ls).take n = cls.take n ++ [] := by
          rw [List.take_append, show n - cls.length = 0 by omega, List.take_zero]
        cases hcs : e.commands with
        | none =>
          rw [hcs] at hc
          have := cmdLines_len hc
          rw [show listing 1 ((none : Option (List (Command D))).getD []) = [] by rfl] at this
          simp only [List.length_nil] at this
          omega
        | some cs =>
          obtain ⟨cs', hcs'⟩ := SB.listing_take cs 1 n
          have hce : (e.setCommands cs').commands = some cs' := commands_set hcs cs'
          refine ⟨[e.setCommands cs'], ?_, ?_⟩
          · rw [hz]
            refine .cons (by rw [set_setCommands]; exact hh) ?_ .nil
            rw [hce, Option.getD_some, hcs']
            rw [hcs, Option.getD_some] at hc
            exact cmdLines_take hc n
          · unfold evRows
            rw [List.flatMap_cons, List.flatMap_cons, List.flatMap_nil, List.append_nil, set_setCommands, hce, hcs, Option.getD_some,
              Option.getD_some, hcs', List.cons_append, List.prefix_cons_inj, List.map_take]
            exact (List.take_prefix _ _).trans (List.prefix_append _ _)

theorem events_cut [DecLib D] [UniLib] {v : Nat} {vars : List Variable} {y z : Str} {es : List (Event D)} (hy : NoEndCR y)
    (h : Events.parseVars v vars (y ++ '\n' :: z) = .ok es) : ∃ es1, Events.parseVars v vars y = .ok es1 ∧ EventsPart es1 es := by
  rw [events_vars_reads, contentLines_cut hy] at h
  obtain ⟨es1, h1, h2⟩ := sectionReads_take h (contentLines (lines y)).length
  rw [List.take_left' rfl] at h1
  exact ⟨es1, events_vars_reads.2 h1, h2⟩

end

/-! ### Key/value sections -/

theorem kv_cut {s r : Str} {es : List (KVLine × Str)} (h : KVEntries s es r) (hr : Blank r) {y z : Str} (e : s = y ++ '\n' :: z) :
    ∃ es1 r1, KVEntries y es1 r1 ∧ Blank r1 ∧ es1.map Prod.fst <+: es.map Prod.fst := by
  induction h generalizing y with
  | nil r =>
    refine ⟨[], y, .nil y, ?_, List.nil_prefix⟩
    rw [e] at hr
    exact (blank_app.1 hr).1
  | @cons l gap s es r hk hw hv hh hg hb hs he h ih =>
    have hlf : '\n' ∉ l.text := by
      unfold KVLine.text
      intro hm
      rcases List.mem_append.1 hm with hm | hm
      · exact absurd (hk _ hm) (by decide)
      · rcases List.mem_cons.1 hm with hm | hm
        · exact absurd hm (by decide)
        · rcases List.mem_append.1 hm with hm | hm
          · exact absurd (hw _ hm) (by decide)
          · exact absurd (hv _ hm) (by decide)
    rcases cut_at e with ⟨u, h1, -⟩ | ⟨u, rfl, h2⟩
    · exact absurd h1 fun h1 => noLF_cut hlf h1
    · rcases cut_at h2 with ⟨w, h3, -⟩ | ⟨w, rfl, h4⟩
      · refine ⟨[(l, u)], [], ?_, blank_nil, ⟨es.map Prod.fst, rfl⟩⟩
        have := KVEntries.cons (l := l) (gap := u) (s := []) (es := []) (r := []) hk hw hv hh
          (fun c hc => hg c (by rw [h3]; exact List.mem_append_left _ hc)) ?_ nofun (fun _ => rfl) (.nil [])
        · simpa using this
        · intro c q hq
          exact hb c (q ++ '\n' :: w) (by rw [h3, hq]; rfl)
      · obtain ⟨es1, r1, h5, h6, h7⟩ := ih hr h4
        refine ⟨(l, gap) :: es1, r1, ?_, h6, ?_⟩
        · refine .cons hk hw hv hh hg hb ?_ ?_ h5
          · intro c q hq
            exact hs c (q ++ '\n' :: z) (by rw [h4, hq]; rfl)
          · intro hgap
            have := he hgap
            rw [h4] at this
            simp at this
        · rw [List.map_cons, List.map_cons, List.prefix_cons_inj]; exact h7

theorem schema_cut {S : Schema} (hS : S.Lawful) {v : Nat} {y z : Str} {sec : S.Section} (h : S.fromStr v (y ++ '\n' :: z) = .ok sec) :
    ∃ sec1, S.fromStr v y = .ok sec1 ∧ FieldsPart sec1 sec := by
  obtain ⟨es, r, ⟨h1, -⟩, hr, h3, h4, h5⟩ := (C06_any_text_accepted hS v _ sec).1 h
  obtain ⟨es1, r1, g1, g2, g3⟩ := kv_cut h1 hr rfl
  have hmem : ∀ e ∈ es1, ∃ e' ∈ es, e'.1 = e.1 := by
    intro e he
    have := g3.subset (List.mem_map_of_mem (f := Prod.fst) he)
    obtain ⟨e', he', e1⟩ := List.mem_map.1 this
    exact ⟨e', he', e1⟩
  classical
  refine ⟨fun k => if ∃ e ∈ es1, e.1.key = S.name k then sec k else none, ?_, ?_⟩
  · refine (C06_any_text_accepted hS v _ _).2 ⟨es1, r1, ⟨g1, ?_⟩, g2, ?_, ?_, ?_⟩
    · intro a b e
      have := g2 ':' (by rw [e]; simp)
      exact absurd this (by decide)
    · have : es1.map (fun e => e.1.key) <+: es.map fun e => e.1.key := by
        have := g3.map KVLine.key
        rwa [List.map_map, List.map_map] at this
      exact this.sublist.nodup h3
    · intro e he
      obtain ⟨e', he', e1⟩ := hmem e he
      obtain ⟨k, hk, hp⟩ := h4 e' he'
      rw [e1] at hk hp
      refine ⟨k, hk, ?_⟩
      rw [if_pos ⟨e, he, hk.symm⟩]; exact hp
    · intro k hk
      rw [if_neg]
      rintro ⟨e, he, e1⟩
      exact hk e he e1
  · intro k x hx
    dsimp only at hx
    split at hx
    · exact hx
    · cases hx

/-! ### The sections of a text -/

theorem sections_header {t rest : Str} {xs : List Sect} (h : Sections t xs rest) {y : Sect} (hy : y ∈ xs) : sectHeader y.name <:+: t := by
  induction h with
  | nil => cases hy
  | @cons x s xs r hw hn hw2 hb he h ih =>
    rcases List.mem_cons.1 hy with rfl | hy
    · exact ⟨y.ws, y.ws2 ++ (y.body ++ s), by simp [sectHeader]⟩
    · obtain ⟨a, b, e⟩ := ih hy
      exact ⟨x.ws ++ '[' :: (x.name ++ ']' :: (x.ws2 ++ (x.body ++ a))), b, by rw [← e]; simp⟩

/-- The sections of a text that is cut at the end of a line: whole ones, and perhaps one whose content is cut. -/
theorem sections_cut {t rest : Str} {xs : List Sect} (h : Sections t xs rest) {t1 t2 : Str} (e : t = t1 ++ '\n' :: t2) :
    (∃ p q r1, xs = p ++ q ∧ Sections t1 p r1 ∧ ∀ y ∈ q, sectHeader y.name <:+: t2) ∨
    ∃ p x q w b, xs = p ++ x :: q ∧ Sections t1 (p ++ [⟨x.ws, x.name, w, b⟩]) [] ∧ (∃ d, t1 = d ++ b) ∧
      (b = [] ∨ ∃ z, x.body = b ++ '\n' :: z) ∧ ∀ y ∈ q, sectHeader y.name <:+: t2 := by
  induction h generalizing t1 with
  | @nil r hn =>
    refine .inl ⟨[], [], t1, rfl, .nil ?_, nofun⟩
    rintro ⟨ws, name, r', e', h1, h2⟩
    exact hn ⟨ws, name, r' ++ '\n' :: t2, by rw [e, e']; simp, h1, h2⟩
  | @cons x s xs r hw hn hw2 hb he h ih =>
    have hin : ∀ {u : Str}, t2 = u ++ s → ∀ y ∈ xs, sectHeader y.name <:+: t2 := by
      rintro u rfl y hy
      exact (sections_header h hy).trans (List.suffix_append u s).isInfix
    rcases cut_at e with ⟨u, h1, h2⟩ | ⟨u, rfl, h2⟩
    · left
      refine ⟨[], x :: xs, t1, rfl, .nil ?_, ?_⟩
      · rintro ⟨ws, name, r', e', -⟩
        have := hw '[' (by rw [h1, e']; simp)
        exact absurd this (by decide)
      · intro y hy
        rcases List.mem_cons.1 hy with rfl | hy
        · exact ⟨u, y.ws2 ++ (y.body ++ s), by rw [h2]; simp [sectHeader]⟩
        · exact hin (u := u ++ '[' :: (x.name ++ ']' :: (x.ws2 ++ x.body))) (by rw [h2]; simp) y hy
    · have h2' : sectHeader x.name ++ (x.ws2 ++ (x.body ++ s)) = u ++ '\n' :: t2 := by rw [← h2]; simp [sectHeader]
      rcases cut_at h2' with ⟨w, h3, -⟩ | ⟨w, rfl, h4⟩
      · exfalso
        refine noLF_cut ?_ h3
        unfold sectHeader
        intro hm
        rcases List.mem_cons.1 hm with hm | hm
        · exact absurd hm (by decide)
        · rcases List.mem_append.1 hm with hm | hm
          · exact hn.2 hm
          · exact absurd hm (by decide)
      · rcases cut_at h4 with ⟨k, h5, h6⟩ | ⟨k, rfl, h6⟩
        · refine .inr ⟨[], x, xs, w, [], rfl, ?_, ⟨_, (List.append_nil _).symm⟩, .inl rfl, hin (u := k ++ x.body) (by rw [h6]; simp)⟩
          have := Sections.cons (x := ⟨x.ws, x.name, w, []⟩) (s := []) (xs := []) (r := []) hw hn
            (fun c hc => hw2 c (by rw [h5]; exact List.mem_append_left _ hc)) nofun ⟨.inl rfl, fun a b => by simp⟩
            (.nil fun ⟨ws, name, r', e', _⟩ => by simp at e')
          simpa [sectHeader] using this
        · rcases cut_at h6 with ⟨z, h7, h8⟩ | ⟨z, rfl, h8⟩
          · refine .inr ⟨[], x, xs, x.ws2, k, rfl, ?_, ⟨_, by rw [← List.append_assoc, ← List.append_assoc]⟩, .inr ⟨z, h7⟩, hin h8⟩
            have := Sections.cons (x := ⟨x.ws, x.name, x.ws2, k⟩) (s := []) (xs := []) (r := []) hw hn hw2
              (fun c q hq => hb c (q ++ '\n' :: (z ++ s)) (by
                rw [List.append_nil] at hq
                have hq : k = c :: q := hq
                rw [h7, hq]; simp))
              ⟨.inl rfl, fun a b hab => he.2 a (b ++ '\n' :: z) (by
                have : k = a ++ '\n' :: '[' :: b := hab
                rw [h7, this]; simp)⟩
              (.nil fun ⟨ws, name, r', e', _⟩ => by simp at e')
            simpa [sectHeader] using this
          · cases z with
            | nil =>
              refine .inl ⟨[x], xs, [], rfl, ?_, ?_⟩
              · have := Sections.cons (x := x) (s := []) (xs := []) (r := []) hw hn hw2
                  (fun c q hq => hb c (q ++ s) (by rw [List.append_nil] at hq; rw [hq]; rfl)) ⟨.inl rfl, he.2⟩
                  (.nil fun ⟨ws, name, r', e', _⟩ => by simp at e')
                simpa [sectHeader] using this
              · intro y hy
                obtain ⟨a, b, e1⟩ := sections_header h hy
                rw [h8, List.nil_append] at e1
                cases a with
                | nil =>
                  simp only [sectHeader, List.nil_append, List.cons_append] at e1
                  injection e1 with e1 _
                  exact absurd e1 (by decide)
                | cons c a =>
                  simp only [List.cons_append] at e1
                  injection e1 with _ e1
                  exact ⟨a, b, e1⟩
            | cons c z =>
              have hz : ∃ z', c :: z = '\n' :: '[' :: z' := by
                rcases he.1 with h0 | ⟨r', h0⟩
                · rw [h8] at h0; simp at h0
                · rw [h8, List.cons_append] at h0
                  injection h0 with h0 h0'
                  cases z with
                  | nil =>
                    rw [List.nil_append] at h0'
                    injection h0' with h0' _
                    exact absurd h0' (by decide)
                  | cons d z =>
                    rw [List.cons_append] at h0'
                    injection h0' with h0' _
                    exact ⟨z, by rw [h0, h0']⟩
              have hh : HeadNot isMultispace (x.body ++ (c :: z)) := fun d q hq => hb d (q ++ '\n' :: t2) (by
                rw [h8, ← List.append_assoc, hq]; rfl)
              have hbe : BodyEnds x.body (c :: z) := ⟨.inr hz, he.2⟩
              rcases ih h8 with ⟨p, q, r1, rfl, h9, h10⟩ | ⟨p, x', q, w, b, rfl, h9, ⟨d, hd⟩, h10, h11⟩
              · refine .inl ⟨x :: p, q, r1, rfl, ?_, h10⟩
                have := Sections.cons hw hn hw2 hh hbe h9
                simpa [sectHeader] using this
              · refine .inr ⟨x :: p, x', q, w, b, rfl, ?_, ?_, h10, h11⟩
                · have := Sections.cons hw hn hw2 hh hbe h9
                  simpa [sectHeader] using this
                · rw [hd]
                  exact ⟨_, by rw [← List.append_assoc, ← List.append_assoc, ← List.append_assoc, ← List.append_assoc]⟩

theorem infix_join {u : Str} (hu : '\n' ∉ u) (hne : u ≠ []) {ls : List Str} (h : u <:+: join ['\n'] ls) : ∃ l ∈ ls, u <:+: l := by
  induction ls with
  | nil =>
    obtain ⟨a, b, e⟩ := h
    simp only [join, List.append_eq_nil_iff] at e
    exact absurd e.1.2 hne
  | cons l ls ih =>
    cases ls with
    | nil => exact ⟨l, .head _, by simpa [join] using h⟩
    | cons m ls =>
      obtain ⟨a, b, e⟩ := h
      have e' : (a ++ u) ++ b = l ++ '\n' :: join ['\n'] (m :: ls) := by rw [e]; simp [join]
      rcases cut_at e' with ⟨w, h1, h2⟩ | ⟨w, h1, -⟩
      · rcases cut_at h1 with ⟨w', h3, h4⟩ | ⟨w', -, h4⟩
        · obtain ⟨k, hk, hi⟩ := ih ⟨w', b, by rw [h2, h4]⟩
          exact ⟨k, .tail _ hk, hi⟩
        · exact absurd h4 fun h4 => noLF_cut hu h4
      · exact ⟨l, .head _, a, w, h1.symm⟩

theorem noEndCR_join {ls : List Str} (h : ∀ l ∈ ls, NoEndCR l) : NoEndCR (join ['\n'] ls) := by
  induction ls with
  | nil => simp [NoEndCR, join]
  | cons l ls ih =>
    cases ls with
    | nil => simpa [join] using h l (.head _)
    | cons m ls =>
      have hj := ih fun x hx => h x (.tail _ hx)
      have : join ['\n'] (l :: m :: ls) = l ++ '\n' :: join ['\n'] (m :: ls) := by simp [join]
      rw [this]
      unfold NoEndCR at hj ⊢
      rw [List.getLast?_append, List.getLast?_cons]
      cases hl : (join ['\n'] (m :: ls)).getLast? with
      | none => simp
      | some c => rw [hl] at hj; simpa using hj

theorem join_app_lf {a b : List Str} (ha : a ≠ []) (hb : b ≠ []) : join ['\n'] (a ++ b) = join ['\n'] a ++ '\n' :: join ['\n'] b := by
  induction a with
  | nil => exact absurd rfl ha
  | cons x a ih =>
    cases a with
    | nil =>
      obtain ⟨y, b, rfl⟩ := List.exists_cons_of_ne_nil hb
      simp [join]
    | cons y a =>
      have := ih (by simp)
      simp only [List.cons_append, join] at this ⊢
      rw [this]
      simp

/-- The layout of a text that is cut at the end of a line. -/
theorem layout_cut {s rest : Str} {pre : List Str} {xs : List Sect} (h : Layout s pre xs rest) {a b : Str} (e : s = a ++ '\n' :: b)
    (hcr : ∀ l ∈ lines s, NoEndCR l) :
    (∃ pre1 p q r1, xs = p ++ q ∧ Layout (a ++ ['\n']) pre1 p r1 ∧ pre1 <+: pre ∧ ∀ y ∈ q, ∃ l ∈ lines b, sectHeader y.name <:+: l) ∨
    ∃ p x q w c, xs = p ++ x :: q ∧ Layout (a ++ ['\n']) pre (p ++ [⟨x.ws, x.name, w, c⟩]) [] ∧ NoEndCR c ∧
      (c = [] ∨ ∃ z, x.body = c ++ '\n' :: z) ∧ ∀ y ∈ q, ∃ l ∈ lines b, sectHeader y.name <:+: l := by
  obtain ⟨ls, h1, h2, h3, h4⟩ := h
  have hl : lines (a ++ ['\n']) ++ lines b = pre ++ ls := by rw [← lines_append, ← e, h1]
  have hnl : ∀ {ls2 : List Str}, (∀ l ∈ ls2, l ∈ lines b) → ∀ {y : Sect}, y ∈ xs → sectHeader y.name <:+: join ['\n'] ls2 →
      ∃ l ∈ lines b, sectHeader y.name <:+: l := by
    intro ls2 hsub y hy hi
    have hn : '\n' ∉ sectHeader y.name := by
      have hny : '\n' ∉ y.name := by
        clear hi h3 h1 hl
        generalize join ['\n'] ls = t at h4
        induction h4 with
        | nil => cases hy
        | cons _ hn _ _ _ _ ih =>
          rcases List.mem_cons.1 hy with rfl | hy
          · exact hn.2
          · exact ih hy
      unfold sectHeader
      simp [hny]
    obtain ⟨l, hl, hi⟩ := infix_join hn (by simp [sectHeader]) hi
    exact ⟨l, hsub l hl, hi⟩
  rcases List.append_eq_append_iff.1 hl with ⟨k, h5, h6⟩ | ⟨k, h5, h6⟩
  · -- the cut is before the first section
    left
    refine ⟨lines (a ++ ['\n']), [], xs, [], rfl, ⟨[], (List.append_nil _).symm, ?_, nofun, .nil ?_⟩, ⟨k, h5.symm⟩, ?_⟩
    · intro l hl
      exact h2 l (by rw [h5]; exact List.mem_append_left _ hl)
    · rintro ⟨ws, name, r', e', -⟩; simp [join] at e'
    · intro y hy
      exact hnl (ls2 := ls) (fun l hl => by rw [h6]; exact List.mem_append_right _ hl) hy (sections_header h4 hy)
  · by_cases hk : k = []
    · subst hk
      rw [List.append_nil] at h5
      left
      refine ⟨pre, [], xs, [], rfl, ⟨[], by rw [h5, List.append_nil], h2, nofun, .nil ?_⟩, List.prefix_refl _, ?_⟩
      · rintro ⟨ws, name, r', e', -⟩; simp [join] at e'
      · intro y hy
        exact hnl (ls2 := ls) (fun l hl => by rw [h6] at hl; simpa using hl) hy (sections_header h4 hy)
    · have hhead : ∀ l, k.head? = some l → Bracketed l := by
        intro l hl
        apply h3 l
        rw [h6, List.head?_append, hl]; rfl
      have hcr1 : NoEndCR (join ['\n'] k) := noEndCR_join fun l hl => hcr l (by
        rw [h1, h6]; simp [hl])
      by_cases hb : lines b = []
      · rw [hb, List.append_nil] at h6
        subst h6
        left
        exact ⟨pre, xs, [], rest, by simp, ⟨ls, h5, h2, h3, h4⟩, List.prefix_refl _, nofun⟩
      · rw [h6] at h4
        rcases sections_cut h4 (join_app_lf hk hb) with ⟨p, q, r1, rfl, h7, h8⟩ | ⟨p, x, q, w, c, rfl, h7, ⟨d, hd⟩, h8, h9⟩
        · left
          exact ⟨pre, p, q, r1, rfl, ⟨k, h5, h2, hhead, h7⟩, List.prefix_refl _, fun y hy =>
            hnl (fun l hl => hl) (List.mem_append_right _ hy) (h8 y hy)⟩
        · right
          refine ⟨p, x, q, w, c, rfl, ⟨k, h5, h2, hhead, h7⟩, ?_, h8, fun y hy =>
            hnl (fun l hl => hl) (List.mem_append_right _ (.tail _ hy)) (h9 y hy)⟩
          rw [hd] at hcr1
          unfold NoEndCR at hcr1 ⊢
          rw [List.getLast?_append] at hcr1
          intro hc
          rw [hc] at hcr1
          exact hcr1 rfl

theorem sections_final {t rest : Str} {xs : List Sect} (h : Sections t xs rest) {p : List Sect} {x : Sect} (e : xs = p ++ [x]) :
    (∃ d, t = d ++ (sectHeader x.name ++ (x.ws2 ++ (x.body ++ rest)))) ∧ AllC isMultispace x.ws2 := by
  induction h generalizing p with
  | nil => cases p <;> cases e
  | @cons y s xs r hw hn hw2 hb he h ih =>
    cases p with
    | nil =>
      simp only [List.nil_append] at e
      injection e with e1 e2
      subst e1 e2
      cases h
      exact ⟨⟨y.ws, by simp [sectHeader]⟩, hw2⟩
    | cons z p =>
      simp only [List.cons_append] at e
      injection e with e1 e2
      obtain ⟨⟨d, hd⟩, h2⟩ := ih e2
      exact ⟨⟨y.ws ++ '[' :: (y.name ++ ']' :: (y.ws2 ++ (y.body ++ d))), by rw [hd]; simp⟩, h2⟩

theorem join_tail {u w : Str} (hu : '\n' ∉ u) (hne : u ≠ []) (hw : AllC isMultispace w) {ls : List Str} {d : Str}
    (e : join ['\n'] ls = d ++ (u ++ w)) :
    ∃ p d' w' q, ls = p ++ (d' ++ u ++ w') :: q ∧ AllC isMultispace w' ∧ ∀ l ∈ q, AllC isMultispace l := by
  induction ls generalizing d with
  | nil =>
    simp only [join] at e
    have := congrArg List.length e
    simp only [List.length_nil, List.length_append] at this
    exact absurd (List.length_eq_zero_iff.1 (by omega)) hne
  | cons l ls ih =>
    cases ls with
    | nil =>
      simp only [join] at e
      exact ⟨[], d, w, [], by rw [e]; simp, hw, nofun⟩
    | cons m ls =>
      have e' : d ++ (u ++ w) = l ++ '\n' :: join ['\n'] (m :: ls) := by rw [← e]; simp [join]
      rcases cut_at e' with ⟨k, -, h2⟩ | ⟨k, h1, h2⟩
      · obtain ⟨p, d', w', q, h3, h4, h5⟩ := ih h2
        exact ⟨l :: p, d', w', q, by rw [h3]; rfl, h4, h5⟩
      · rcases cut_at h2 with ⟨k', h3, -⟩ | ⟨k', rfl, h3⟩
        · exact absurd h3 fun h3 => noLF_cut hu h3
        · refine ⟨[], d, k', m :: ls, by rw [h1]; simp, fun c hc => hw c (by rw [h3]; exact List.mem_append_left _ hc), ?_⟩
          have hj : AllC isMultispace (join ['\n'] (m :: ls)) := fun c hc => hw c (by rw [h3]; simp [hc])
          clear ih e e' h1 h2 h3
          generalize m :: ls = ks at hj
          induction ks with
          | nil => nofun
          | cons x ks ih =>
            cases ks with
            | nil =>
              intro l hl
              rw [List.mem_singleton] at hl
              subst hl
              simpa [join] using hj
            | cons y ks =>
              intro l hl
              have e : join ['\n'] (x :: y :: ks) = x ++ '\n' :: join ['\n'] (y :: ks) := by simp [join]
              rw [e] at hj
              rcases List.mem_cons.1 hl with rfl | hl
              · exact fun c hc => hj c (List.mem_append_left _ hc)
              · exact ih (fun c hc => hj c (by simp [hc])) l hl

theorem stripCR_app (u : Str) {t : Str} (h : t ≠ []) : stripCR (u ++ t) = u ++ stripCR t := by
  unfold stripCR
  have hl : (u ++ t).getLast? = t.getLast? := by
    rw [List.getLast?_append]
    cases ht : t.getLast? with
    | none => exact absurd (List.getLast?_eq_none_iff.1 ht) h
    | some c => rfl
  rw [hl]
  split
  · rw [List.dropLast_append_of_ne_nil h]
  · rfl

/-- The lines of a text that is longer at its start: more lines, and perhaps a longer first line. -/
theorem lines_longer (u : Str) {t l : Str} {ls : List Str} (h : lines t = l :: ls) : ∃ p d, lines (u ++ t) = p ++ (d ++ l) :: ls := by
  obtain ⟨x, rest, rfl, hx, hr⟩ := firstLine_split t
  have key : ∀ w : Str, '\n' ∉ w → ∃ d, lines (w ++ (x ++ rest)) = (d ++ l) :: ls := by
    intro w hw
    have hwx : NoLF (w ++ x) := fun c hc => by
      rcases List.mem_append.1 hc with hc | hc
      · have : c ≠ '\n' := fun e => hw (e ▸ hc)
        simp [this]
      · exact hx c hc
    rw [← List.append_assoc]
    rcases hr with rfl | ⟨r, rfl⟩
    · rw [List.append_nil] at h ⊢
      by_cases hne : x = []
      · subst hne; cases h
      · rw [lines_single hx hne] at h
        cases h
        exact ⟨w, lines_single hwx (by simp [hne])⟩
    · rw [lines_cons hx] at h
      injection h with h1 h2
      rw [lines_cons hwx, h2]
      by_cases hne : x = []
      · subst hne
        rw [List.append_nil, ← h1]
        exact ⟨stripCR w, by simp [stripCR]⟩
      · exact ⟨w, by rw [stripCR_app w hne, h1]⟩
  by_cases hu : '\n' ∈ u
  · obtain ⟨a, b, rfl, hb⟩ : ∃ a b, u = a ++ '\n' :: b ∧ '\n' ∉ b := by
      clear key
      induction u with
      | nil => cases hu
      | cons c u ih =>
        by_cases h' : '\n' ∈ u
        · obtain ⟨a, b, rfl, hb⟩ := ih h'
          exact ⟨c :: a, b, rfl, hb⟩
        · rcases List.mem_cons.1 hu with rfl | h''
          · exact ⟨[], u, rfl, h'⟩
          · exact absurd h'' h'
    obtain ⟨d, hd⟩ := key b hb
    exact ⟨lines (a ++ ['\n']), d, by rw [List.append_assoc, List.cons_append, lines_append, hd]⟩
  · obtain ⟨d, hd⟩ := key u hu
    exact ⟨[], d, hd⟩

/-! ### Files -/

section
variable {D : Type} [DecLib D]

theorem keepFields (f : OsuFile D) (names : List Str) : ∃ g : OsuFile D, g.version = f.version ∧ g.osb = none ∧
    (∀ n : SName, n.text ∈ names → SameField g f n) ∧ ∀ n : SName, n.text ∉ names → SectAbsent g n := by
  refine ⟨{ version := f.version, osb := none,
            general := if SName.general.text ∈ names then f.general else none,
            editor := if SName.editor.text ∈ names then f.editor else none,
            metadata := if SName.metadata.text ∈ names then f.metadata else none,
            difficulty := if SName.difficulty.text ∈ names then f.difficulty else none,
            events := if SName.events.text ∈ names then f.events else none,
            timingPoints := if SName.timingPoints.text ∈ names then f.timingPoints else none,
            colours := if SName.colours.text ∈ names then f.colours else none,
            hitobjects := if SName.hitobjects.text ∈ names then f.hitobjects else none }, rfl, rfl, ?_, ?_⟩
  · intro n hn; cases n <;> exact if_pos hn
  · intro n hn; cases n <;> exact if_neg hn

variable [UniLib]

theorem sect_cut {v : Nat} {f : OsuFile D} {y z : Str} {n : SName} (hy : NoEndCR y) (h : SectReads v f (y ++ '\n' :: z) n) :
    ∃ g : OsuFile D, SectReads v g y n ∧ SectPart g f n ∧ (SectAbsent g n → SectAbsent f n) := by
  cases n
  case general =>
    obtain ⟨x, h1, h2⟩ := h
    obtain ⟨x1, h3, h4⟩ := schema_cut (General_lawful D) h1
    exact ⟨{ OsuFile.new v with general := some x1 }, ⟨x1, h3, rfl⟩, fun a ha => by cases ha; exact ⟨x, h2, h4⟩, fun ha => by cases ha⟩
  case editor =>
    obtain ⟨x, h1, h2⟩ := h
    obtain ⟨x1, h3, h4⟩ := schema_cut (Editor_lawful D) h1
    exact ⟨{ OsuFile.new v with editor := some x1 }, ⟨x1, h3, rfl⟩, fun a ha => by cases ha; exact ⟨x, h2, h4⟩, fun ha => by cases ha⟩
  case metadata =>
    obtain ⟨x, h1, h2⟩ := h
    obtain ⟨x1, h3, h4⟩ := schema_cut Metadata_lawful h1
    exact ⟨{ OsuFile.new v with metadata := some x1 }, ⟨x1, h3, rfl⟩, fun a ha => by cases ha; exact ⟨x, h2, h4⟩, fun ha => by cases ha⟩
  case difficulty =>
    obtain ⟨x, h1, h2⟩ := h
    obtain ⟨x1, h3, h4⟩ := schema_cut (Difficulty_lawful D) h1
    exact ⟨{ OsuFile.new v with difficulty := some x1 }, ⟨x1, h3, rfl⟩, fun a ha => by cases ha; exact ⟨x, h2, h4⟩, fun ha => by cases ha⟩
  case events =>
    obtain ⟨x, h1, h2⟩ := h
    obtain ⟨x1, h3, h4⟩ := events_cut hy h1
    exact ⟨{ OsuFile.new v with events := some x1 }, ⟨x1, h3, rfl⟩, fun a ha => by cases ha; exact ⟨x, h2, h4⟩, fun ha => by cases ha⟩
  case timingPoints =>
    obtain ⟨x, h1, h2⟩ := h
    obtain ⟨x1, h3, h4⟩ := parseLines_cut hy h1
    exact ⟨{ OsuFile.new v with timingPoints := some x1 }, ⟨x1, h3, rfl⟩, fun a ha => by cases ha; exact ⟨x, h2, h4⟩, fun ha => by cases ha⟩
  case hitobjects =>
    obtain ⟨x, h1, h2⟩ := h
    obtain ⟨x1, h3, h4⟩ := parseLines_cut hy h1
    exact ⟨{ OsuFile.new v with hitobjects := some x1 }, ⟨x1, h3, rfl⟩, fun a ha => by cases ha; exact ⟨x, h2, h4⟩, fun ha => by cases ha⟩
  case colours =>
    obtain ⟨x, h1, h2⟩ := h
    by_cases hv : 3 ≤ v ∧ v ≤ 4
    · refine ⟨{ OsuFile.new v with colours := none }, ⟨none, by unfold Colours.parse; rw [if_pos hv], rfl⟩, (fun a ha => by cases ha), fun _ => ?_⟩
      unfold Colours.parse at h1
      rw [if_pos hv] at h1
      cases h1
      exact h2
    · unfold Colours.parse at h1
      rw [if_neg hv] at h1
      cases hp : parseLines Colour.parse (y ++ '\n' :: z) with
      | ok l =>
        rw [hp] at h1
        cases h1
        obtain ⟨x1, h3, h4⟩ := parseLines_cut hy hp
        exact ⟨{ OsuFile.new v with colours := some x1 }, ⟨some x1, by unfold Colours.parse; rw [if_neg hv, h3]; rfl, rfl⟩,
          fun a ha => by cases ha; exact ⟨l, h2, h4⟩, fun ha => by cases ha⟩
      | err e => rw [hp] at h1; cases h1
      | panic => rw [hp] at h1; cases h1

theorem outcome_empty (v : Nat) (n : SName) : n.outcome D v [] = .ok () := by
  cases n
  case colours =>
    by_cases hv : 3 ≤ v ∧ v ≤ 4
    · simp only [SName.outcome, Colours.parse, if_pos hv]; rfl
    · simp only [SName.outcome, Colours.parse, if_neg hv]; rfl
  all_goals rfl

theorem fileReads_whole {v : Nat} {p q : List Sect} {f g : OsuFile D} (h : FileReads v (p ++ q) f) (hv : g.version = f.version) (ho : g.osb = none)
    (hs : ∀ n : SName, n.text ∈ p.map Sect.name → SameField g f n) (ha : ∀ n : SName, n.text ∉ p.map Sect.name → SectAbsent g n) :
    FileReads v p g := by
  obtain ⟨h1, -, h3, h4, -⟩ := h
  refine ⟨hv.trans h1, ho, ?_, ?_, ha⟩
  · rw [List.map_append] at h3
    exact (List.sublist_append_left _ _).nodup h3
  · intro x hx
    obtain ⟨hb, n, hn, hr⟩ := h4 x (List.mem_append_left _ hx)
    exact ⟨hb, n, hn, hr.same (hs n (by rw [hn]; exact List.mem_map_of_mem hx))⟩

theorem SectAbsent.same {f g : OsuFile D} {n : SName} (h : SectAbsent g n) (hs : SameField g f n) : SectAbsent f n := by
  cases n <;> exact (Eq.symm hs).trans h

theorem SectPart.refl (f : OsuFile D) (n : SName) : SectPart f f n := by
  cases n
  case events => exact fun a ha => ⟨a, ha, List.prefix_refl _⟩
  case timingPoints => exact fun a ha => ⟨a, ha, List.prefix_refl _⟩
  case colours => exact fun a ha => ⟨a, ha, List.prefix_refl _⟩
  case hitobjects => exact fun a ha => ⟨a, ha, List.prefix_refl _⟩
  all_goals exact fun a ha => ⟨a, ha, fun _ _ h => h⟩

theorem SectPart.same {f g k : OsuFile D} {n : SName} (h : SectPart g f n) (hs : SameField k g n) : SectPart k f n := by
  cases n <;> exact fun a ha => h a ((Eq.symm hs).trans ha)

theorem SectPart.absent {f g : OsuFile D} {n : SName} (h : SectAbsent g n) : SectPart g f n := by
  cases n <;> exact fun a ha => absurd (h.symm.trans ha) (by simp)

theorem SameField.sect {f g : OsuFile D} {n : SName} (h : SameField g f n) : SectWhole g f n := by
  cases n <;> exact h

/-- The sections of a file that is cut: whole ones only. -/
theorem cut_whole {b : Str} {v : Nat} {p q : List Sect} {f : OsuFile D} (h : FileReads v (p ++ q) f)
    (hq : ∀ y ∈ q, ∃ l ∈ lines b, sectHeader y.name <:+: l) : ∃ g, FileReads v p g ∧ CutFile b g f := by
  obtain ⟨g, h1, h2, h3, h4⟩ := keepFields f (p.map Sect.name)
  have hall : ∀ m, SameField g f m ∨ SectAbsent g m := fun m => by
    by_cases hm : m.text ∈ p.map Sect.name
    · exact .inl (h3 m hm)
    · exact .inr (h4 m hm)
  refine ⟨g, fileReads_whole h h1 h2 h3 h4, h1, h2, ⟨.general, ?_, fun m _ => (hall m).imp_left SameField.sect⟩, ?_⟩
  · rcases hall .general with h | h
    · exact (SectPart.refl f _).same h
    · exact .absent h
  · intro n hn hf
    have hx : n.text ∈ (p ++ q).map Sect.name := Classical.byContradiction fun hx => hf (h.2.2.2.2 n hx)
    rw [List.map_append, List.mem_append] at hx
    rcases hx with hx | hx
    · exact absurd (hn.same (h3 n hx)) hf
    · obtain ⟨y, hy, e⟩ := List.mem_map.1 hx
      rw [← e]; exact hq y hy

/-- The sections of a file that is cut in the content of a section. -/
theorem cut_part {b : Str} {v : Nat} {p q : List Sect} {x : Sect} {f : OsuFile D} (h : FileReads v (p ++ x :: q) f)
    (hq : ∀ y ∈ q, ∃ l ∈ lines b, sectHeader y.name <:+: l) {w c z : Str} (hc : NoEndCR c) (hne : c ≠ []) (hx : x.body = c ++ '\n' :: z) :
    ∃ g, FileReads v (p ++ [⟨x.ws, x.name, w, c⟩]) g ∧ CutFile b g f := by
  obtain ⟨g0, h1, h2, h3, h4⟩ := keepFields f (p.map Sect.name)
  have hw := fileReads_whole h h1 h2 h3 h4
  obtain ⟨hb, n, hn, hr⟩ := h.2.2.2.1 x (by simp)
  rw [hx] at hr
  obtain ⟨k, k1, k2, k3⟩ := sect_cut hc hr
  obtain ⟨g, g1, g2, g3, g4⟩ := setField k g0 n
  have hnd := h.2.2.1
  rw [List.map_append, List.map_cons] at hnd
  have hnp : n.text ∉ p.map Sect.name := by
    rw [hn]
    intro hm
    exact (List.nodup_append.1 hnd).2.2 _ hm _ (.head _) rfl
  have hin : ∀ m : SName, m.text ∈ p.map Sect.name → m ≠ n := fun m hm e => hnp (by rw [← e]; exact hm)
  have hall : ∀ m, m ≠ n → SameField g f m ∨ SectAbsent g m := fun m hmn => by
    by_cases hm : m.text ∈ p.map Sect.name
    · exact .inl ((g2 m hmn).trans (h3 m hm))
    · exact .inr ((h4 m hm).same (g2 m hmn).symm)
  refine ⟨g, ⟨?_, g4.trans h2, ?_, ?_, ?_⟩, g3.trans h1, g4.trans h2, ⟨n, k2.same g1, fun m hm => (hall m hm).imp_left SameField.sect⟩, ?_⟩
  · exact g3.trans (h1.trans h.1)
  · have : (p.map Sect.name ++ [x.name]).Sublist (p.map Sect.name ++ x.name :: q.map Sect.name) :=
      (List.sublist_append_left [x.name] (q.map Sect.name)).append_left _ 
    simpa using this.nodup hnd
  · intro y hy
    rcases List.mem_append.1 hy with hy | hy
    · obtain ⟨y1, m, y2, y3⟩ := hw.2.2.2.1 y hy
      exact ⟨y1, m, y2, y3.same (g2 m (hin m (by rw [y2]; exact List.mem_map_of_mem hy)))⟩
    · rw [List.mem_singleton] at hy
      subst hy
      exact ⟨hne, n, hn, k1.same g1⟩
  · intro m hm
    rw [List.map_append, List.mem_append] at hm
    have hmn : m ≠ n := by
      rintro rfl
      exact hm (.inr (by simp [hn]))
    exact (h4 m fun h => hm (.inl h)).same (g2 m hmn).symm
  · intro m hm hf
    have hx : m.text ∈ (p ++ x :: q).map Sect.name := Classical.byContradiction fun hx => hf (h.2.2.2.2 m hx)
    rw [List.map_append, List.mem_append, List.map_cons, List.mem_cons] at hx
    rcases hx with hx | hx | hx
    · exact absurd (hm.same ((g2 m (hin m hx)).trans (h3 m hx))) hf
    · rw [← hn] at hx
      obtain rfl := SName.text_inj hx
      exact absurd (k3 (hm.same g1)) hf
    · obtain ⟨y, hy, e⟩ := List.mem_map.1 hx
      rw [← e]; exact hq y hy

end

/-! ### Storyboards -/

theorem vars_cut {y z : Str} {vs : List Variable} (hy : NoEndCR y) (h : VarsRead (contentLines (lines (y ++ '\n' :: z))) vs) :
    ∃ vs1, VarsRead (contentLines (lines y)) vs1 ∧ vs1 <+: vs := by
  rw [contentLines_cut hy] at h
  generalize contentLines (lines y) = ls at h ⊢
  generalize contentLines (lines z) = ms at h
  induction ls generalizing vs with
  | nil => exact ⟨[], .nil, List.nil_prefix⟩
  | cons l ls ih =>
    cases h with
    | cons h hs =>
      obtain ⟨vs1, h1, h2⟩ := ih hs
      exact ⟨_ :: vs1, .cons h h1, by rw [List.prefix_cons_inj]; exact h2⟩

section
variable {D : Type} [DecLib D] [UniLib]

theorem osb_whole {b : Str} {v : Nat} {xs p q : List Sect} {o : Osb D} (h : OsbReads v xs o) (e : xs = p ++ q)
    (hq : ∀ y ∈ q, ∃ l ∈ lines b, sectHeader y.name <:+: l) : ∃ g, OsbReads v p g ∧ CutOsb b g o := by
  have rv : ∀ vs : Option (List Variable), OptPart (· <+: ·) vs vs := fun vs a ha => ⟨a, ha, List.prefix_refl _⟩
  have re : ∀ es : Option (List (Event D)), OptPart EventsPart es es := fun es a ha => ⟨a, ha, List.prefix_refl _⟩
  have same : p = xs → ∃ g, OsbReads v p g ∧ CutOsb b g o := by
    rintro rfl
    exact ⟨o, h, rv _, re _, .inl rfl, fun h1 h2 => absurd h1 h2, fun h1 h2 => absurd h1 h2⟩
  have hd : ∀ {y : Sect} {n : Str}, y.name = n → y ∈ q → ∃ l ∈ lines b, sectHeader n <:+: l := fun hn hy => hn ▸ hq _ hy
  cases p with
  | nil =>
    rw [List.nil_append] at e
    subst e
    refine ⟨⟨none, none⟩, .none, nofun, nofun, .inr (.inl rfl), ?_, ?_⟩
    · intro _ h'
      cases h with
      | none => exact absurd rfl h'
      | vars hx _ => exact hd hx (by simp)
      | events _ _ => exact absurd rfl h'
      | varsEvents hx _ _ _ => exact hd hx (by simp)
      | eventsVars _ hx _ _ => exact hd hx (by simp)
    · intro _ h'
      cases h with
      | none => exact absurd rfl h'
      | vars _ _ => exact absurd rfl h'
      | events hy _ => exact hd hy (by simp)
      | varsEvents _ hy _ _ => exact hd hy (by simp)
      | eventsVars hy _ _ _ => exact hd hy (by simp)
  | cons x p =>
    by_cases hq0 : q = []
    · exact same (by rw [e, hq0, List.append_nil])
    · cases h with
      | none => cases e
      | vars _ _ =>
        simp only [List.cons_append, List.cons.injEq] at e
        exact absurd (List.append_eq_nil_iff.1 e.2.symm).2 hq0
      | events _ _ =>
        simp only [List.cons_append, List.cons.injEq] at e
        exact absurd (List.append_eq_nil_iff.1 e.2.symm).2 hq0
      | varsEvents hx hy h h' =>
        simp only [List.cons_append, List.cons.injEq] at e
        obtain ⟨rfl, e⟩ := e
        cases p with
        | nil =>
          rw [List.nil_append] at e
          subst e
          exact ⟨⟨some _, none⟩, .vars hx h, rv _, nofun, .inl rfl, (fun h1 => by cases h1), fun _ _ => hd hy (by simp)⟩
        | cons z p =>
          simp only [List.cons_append, List.cons.injEq] at e
          exact absurd (List.append_eq_nil_iff.1 e.2.symm).2 hq0
      | eventsVars hy hx h' h =>
        simp only [List.cons_append, List.cons.injEq] at e
        obtain ⟨rfl, e⟩ := e
        cases p with
        | nil =>
          rw [List.nil_append] at e
          subst e
          exact ⟨⟨none, some _⟩, .events hy h', nofun, re _, .inr (.inl rfl), fun _ _ => hd hx (by simp), (fun h1 => by cases h1)⟩
        | cons z p =>
          simp only [List.cons_append, List.cons.injEq] at e
          exact absurd (List.append_eq_nil_iff.1 e.2.symm).2 hq0

theorem osb_part {b : Str} {v : Nat} {xs p q : List Sect} {x : Sect} {o : Osb D} (h : OsbReads v xs o) (e : xs = p ++ x :: q)
    (hq : ∀ y ∈ q, ∃ l ∈ lines b, sectHeader y.name <:+: l) {w c : Str} (hc : NoEndCR c) (hx : c = [] ∨ ∃ z, x.body = c ++ '\n' :: z) :
    ∃ g, OsbReads v (p ++ [⟨x.ws, x.name, w, c⟩]) g ∧ CutOsb b g o := by
  have rv : ∀ vs : Option (List Variable), OptPart (· <+: ·) vs vs := fun vs a ha => ⟨a, ha, List.prefix_refl _⟩
  have re : ∀ es : Option (List (Event D)), OptPart EventsPart es es := fun es a ha => ⟨a, ha, List.prefix_refl _⟩
  have hd : ∀ {y : Sect} {n : Str}, y.name = n → y ∈ q → ∃ l ∈ lines b, sectHeader n <:+: l := fun hn hy => hn ▸ hq _ hy
  have pv : ∀ {vs : List Variable}, VarsRead (contentLines (lines x.body)) vs → ∃ vs1, VarsRead (contentLines (lines c)) vs1 ∧ vs1 <+: vs := by
    intro vs h
    rcases hx with rfl | ⟨z, hz⟩
    · exact ⟨[], .nil, List.nil_prefix⟩
    · rw [hz] at h; exact vars_cut hc h
  have pe : ∀ {vs : List Variable} {es : List (Event D)}, Events.parseVars v vs x.body = .ok es →
      ∃ es1, Events.parseVars v vs c = .ok es1 ∧ EventsPart es1 es := by
    intro vs es h
    rcases hx with rfl | ⟨z, hz⟩
    · exact ⟨[], events_vars_reads.2 .nil, List.nil_prefix⟩
    · rw [hz] at h; exact events_cut hc h
  cases p with
  | nil =>
    rw [List.nil_append] at e
    subst e
    cases h with
    | vars hx h =>
      obtain ⟨vs1, h1, h2⟩ := pv h
      exact ⟨⟨some vs1, none⟩, .vars hx h1, (fun a ha => by cases ha; exact ⟨_, rfl, h2⟩), nofun, .inr (.inr (.inl rfl)), (fun h1 => by cases h1),
        fun _ h' => absurd rfl h'⟩
    | events hy h =>
      obtain ⟨es1, h1, h2⟩ := pe (vs := []) h
      exact ⟨⟨none, some es1⟩, .events hy h1, nofun, (fun a ha => by cases ha; exact ⟨_, rfl, h2⟩), .inl rfl, fun _ h' => absurd rfl h',
        (fun h1 => by cases h1)⟩
    | varsEvents hx hy h h' =>
      obtain ⟨vs1, h1, h2⟩ := pv h
      exact ⟨⟨some vs1, none⟩, .vars hx h1, (fun a ha => by cases ha; exact ⟨_, rfl, h2⟩), nofun, .inr (.inr (.inr rfl)), (fun h1 => by cases h1),
        fun _ _ => hd hy (by simp)⟩
    | eventsVars hy hx h' h =>
      obtain ⟨es1, h1, h2⟩ := pe (vs := []) h'
      exact ⟨⟨none, some es1⟩, .events hy h1, nofun, (fun a ha => by cases ha; exact ⟨_, rfl, h2⟩), .inr (.inl rfl), fun _ _ => hd hx (by simp),
        (fun h1 => by cases h1)⟩
  | cons y p =>
    rw [List.cons_append] at e
    cases h with
    | none => cases e
    | vars _ _ => injection e with _ e; simp at e
    | events _ _ => injection e with _ e; simp at e
    | varsEvents hx' hy h h' =>
      injection e with e1 e
      subst e1
      cases p with
      | nil =>
        injection e with e1 e
        subst e1
        obtain ⟨es1, h1, h2⟩ := pe h'
        exact ⟨⟨some _, some es1⟩, .varsEvents hx' hy h h1, rv _, (fun a ha => by cases ha; exact ⟨_, rfl, h2⟩), .inl rfl, (fun h1 => by cases h1),
          (fun h1 => by cases h1)⟩
      | cons z p => injection e with _ e; simp at e
    | eventsVars hy hx' h' h =>
      injection e with e1 e
      subst e1
      cases p with
      | nil =>
        injection e with e1 e
        subst e1
        obtain ⟨vs1, h1, h2⟩ := pv h
        exact ⟨⟨some vs1, some _⟩, .eventsVars hy hx' h' h1, (fun a ha => by cases ha; exact ⟨_, rfl, h2⟩), re _, .inr (.inr (.inl rfl)),
          (fun h1 => by cases h1), (fun h1 => by cases h1)⟩
      | cons z p => injection e with _ e; simp at e

end

end Osu
