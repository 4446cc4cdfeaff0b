/-
Lemmas on reading a section in another version.
-/
import Verif.Spec.Reread
import Verif.Props.Faults
import Verif.Props.Eras
import Verif.Props.Release

namespace Osu
open SB Ev

/-- Reading gives a value, or panics when `P` holds. -/
def OkOr {ε α : Type} (P : Prop) (r : Res ε α) : Prop := (∃ x, r = .ok x) ∨ (r = .panic ∧ P)

theorem okOr_lines {ε α β : Type} {P : Prop} {f : Str → Res ε α} {g : Str → Res ε β} (h : ∀ l x, f l = .ok x → OkOr P (g l)) (s : Str) {r : List α}
    (hr : parseLines f s = .ok r) : OkOr P (parseLines g s) := by
  unfold parseLines at hr ⊢
  generalize 0 = k at hr ⊢
  generalize lines s = ls at hr ⊢
  induction ls generalizing k r with
  | nil => exact .inl ⟨_, rfl⟩
  | cons l ls ih =>
    unfold lineLoop at hr ⊢
    split at hr
    · rw [if_pos ‹_›]; exact ih _ hr
    · rw [if_neg ‹_›]
      cases hf : f l with
      | err e => rw [hf] at hr; cases hr
      | panic => rw [hf] at hr; cases hr
      | ok x =>
        rw [hf] at hr
        cases hl : lineLoop f (k + 1) ls with
        | err e => rw [hl] at hr; cases hr
        | panic => rw [hl] at hr; cases hr
        | ok r' =>
          rcases h l x hf with ⟨y, hy⟩ | ⟨hy, hp⟩
          · rw [hy]
            rcases ih _ hl with ⟨z, hz⟩ | ⟨hz, hp⟩
            · rw [hz]; exact .inl ⟨_, rfl⟩
            · rw [hz]; exact .inr ⟨rfl, hp⟩
          · rw [hy]; exact .inr ⟨rfl, hp⟩

theorem key_inj {α β : Type} {f : α → β} {l : List α} (h : (l.map f).Nodup) {a b : α} (ha : a ∈ l) (hb : b ∈ l) (e : f a = f b) : a = b := by
  induction l with
  | nil => cases ha
  | cons c l ih =>
    obtain ⟨h1, h2⟩ := List.nodup_cons.1 h
    rcases List.mem_cons.1 ha with ea | ma <;> rcases List.mem_cons.1 hb with eb | mb
    · rw [ea, eb]
    · rw [← ea, e] at h1; exact absurd (List.mem_map_of_mem mb) h1
    · rw [← eb, ← e] at h1; exact absurd (List.mem_map_of_mem ma) h1
    · exact ih h2 ma mb

theorem okOr_kv {S : Schema} (hS : S.Lawful) {v w : Nat} (h : ∀ k s x, S.parse k v s = .ok x → ∃ y, S.parse k w s = .ok y) {s : Str}
    {sec : S.Section} (hs : S.fromStr v s = .ok sec) : ∃ sec', S.fromStr w s = .ok sec' := by
  classical
  obtain ⟨es, r, h1, h2, h3, h4, -⟩ := (Schema.fromStr_ok_iff hS v s sec).1 hs
  have hc : ∀ k, ∃ y, (∀ e ∈ es, e.1.key = S.name k → S.parse k w e.1.value = .ok y) ∧ ((∀ e ∈ es, e.1.key ≠ S.name k) → y = none) := by
    intro k
    by_cases hk : ∃ e ∈ es, e.1.key = S.name k
    · obtain ⟨e, he, hk⟩ := hk
      obtain ⟨k', e1, e2⟩ := h4 e he
      have := hS.inj _ _ (e1.trans hk)
      subst this
      obtain ⟨y, hy⟩ := h _ _ _ e2
      refine ⟨y, fun e' he' hk' => ?_, fun hn => absurd hk (hn e he)⟩
      have : e' = e := by
        exact key_inj h3 he' he (hk'.trans hk.symm)
      rw [this]; exact hy
    · exact ⟨none, fun e he hk' => absurd ⟨e, he, hk'⟩ hk, fun _ => rfl⟩
  refine ⟨fun k => (hc k).choose, (Schema.fromStr_ok_iff hS w s _).2 ⟨es, r, h1, h2, h3, fun e he => ?_, fun k => (hc k).choose_spec.2⟩⟩
  obtain ⟨k, e1, -⟩ := h4 e he
  exact ⟨k, e1, (hc k).choose_spec.1 e he e1.symm⟩

section
variable {D : Type} [DecLib D]

theorem general_keeps {v w : Nat} (hv : 3 ≤ v ∧ v ≤ 14) (hw : 3 ≤ w ∧ w ≤ 14) (h : keeps v w .general) (k : GKey) (s : Str) (x : Option (k.Val D))
    (hx : GKey.parse k v s = .ok x) : ∃ y : Option (k.Val D), GKey.parse k w s = .ok y := by
  obtain ⟨h4, h5, h14⟩ := h
  cases k with
  | countdown =>
    simp only [GKey.parse, Countdown.parse] at hx ⊢
    by_cases hc : 3 ≤ w ∧ w ≤ 4
    · rw [if_pos hc]; exact ⟨_, rfl⟩
    · rw [if_neg hc]
      rw [if_neg (by have := h5 (by omega); omega)] at hx
      cases hu : parseUsize s with
      | ok n =>
        rw [hu] at hx
        simp only [Countdown.fromRepr] at hx ⊢
        rw [if_neg (by have := h5 (by omega); omega)] at hx
        rw [if_neg hc]
        exact ⟨x, hx⟩
      | err e => rw [hu] at hx; cases hx
      | panic => rw [hu] at hx; cases hx
  | sampleSet =>
    simp only [GKey.parse, GSampleSet.parse] at hx ⊢
    by_cases hc : w = 3
    · rw [if_pos hc]; exact ⟨_, rfl⟩
    · rw [if_neg hc]
      rw [if_neg (by have := h4 (by omega); omega)] at hx
      exact ⟨x, hx⟩
  | overlayPosition =>
    simp only [GKey.parse, OverlayPosition.parse] at hx ⊢
    by_cases hc : 3 ≤ w ∧ w ≤ 13
    · rw [if_pos hc]; exact ⟨_, rfl⟩
    · rw [if_neg hc]
      rw [if_neg (by have := h14 (by omega); omega)] at hx
      exact ⟨x, hx⟩
  | mode =>
    simp only [GKey.parse, Mode.parse] at hx ⊢
    cases hu : parseUsize s with
    | ok n =>
      rw [hu] at hx
      simp only at hx ⊢
      split at hx
      · cases hx
      · repeat' (first | exact ⟨_, rfl⟩ | split)
    | err e => rw [hu] at hx; cases hx
    | panic => rw [hu] at hx; cases hx
  | _ => exact ⟨x, hx⟩

theorem firstFault_volume {p : List Str} {cs cs' : List (Column TPErr)} : firstFault (cs ++ cs') p = none → firstFault cs p = none := by
  induction cs generalizing p with
  | nil => intro _; rfl
  | cons c cs ih =>
    cases p with
    | nil => intro h; cases h
    | cons a p =>
      intro h
      rw [List.cons_append, firstFault] at h
      rw [firstFault]
      by_cases hc : c.ok (if c.toEnd = true then join [','] (a :: p) else a) = true
      · rw [if_pos hc] at h ⊢; exact ih h
      · rw [if_neg hc] at h; cases h

theorem point_keeps {v w : Nat} (hv : 3 ≤ v ∧ v ≤ 14) (hw : 3 ≤ w ∧ w ≤ 14) (h : keeps v w .timingPoints) (l : Str) (x : TimingPoint D)
    (hx : TimingPoint.parse v l = .ok x) : OkOr (w ≤ 4 ∧ 5 ≤ v) (TimingPoint.parse w l : Res TPErr (TimingPoint D)) := by
  by_cases hvw : w = v
  · subst hvw; exact .inl ⟨x, hx⟩
  obtain ⟨p, qs, hs⟩ : ∃ p qs, splitOnC ',' l = p :: qs := by
    cases e : splitOnC ',' l with
    | nil => exact absurd e (splitOnC_ne_nil _ _)
    | cons p qs => exact ⟨p, qs, rfl⟩
  obtain ⟨ho, hf⟩ := (C56_accepted hs).1 ⟨x, hx⟩
  have hf' : firstFault (tpColumns w (qs.length + 1)) (p :: qs) = none := by
    rcases h with h | h | ⟨h1, h2⟩
    · exact absurd h hvw
    · subst h
      unfold tpColumns at hf
      simp only [List.append_assoc] at hf
      have := firstFault_volume hf
      simpa [tpColumns] using this
    · unfold tpColumns at hf ⊢
      have e1 : ¬ v ≤ 3 := by omega
      have e2 : ¬ w ≤ 3 := by omega
      have e3 : v ≠ 4 := by omega
      have e4 : w ≠ 4 := by omega
      have e5 : ¬ v ≤ 4 := by omega
      have e6 : ¬ w ≤ 4 := by omega
      have e7 : v ≠ 5 := by omega
      simp only [e1, e2, e3, e4, e5, e6, e7, false_or, false_and, decide_false, if_false, or_false] at hf ⊢
      by_cases hn : qs.length + 1 ≤ 6
      · simp only [hn, true_or, if_true] at hf ⊢
        exact hf
      · by_cases h7 : w = 5 ∧ qs.length + 1 = 7
        · simp only [hn, h7.1, h7.2, and_self, or_true, if_true, if_false] at hf ⊢
          exact firstFault_volume hf
        · simp only [hn, h7, false_or, if_false] at hf ⊢
          exact hf
  cases hr : (TimingPoint.parse w l : Res TPErr (TimingPoint D)) with
  | ok y => exact .inl ⟨y, rfl⟩
  | err e => rw [((C56_line hs).1 hr).2] at hf'; cases hf'
  | panic =>
    refine .inr ⟨rfl, ?_⟩
    have ht : TimeOverflows D w p := by
      rw [TimingPoint.parse_panic, hs] at hr; exact hr
    obtain ⟨t1, t2, d, t3, t4⟩ := ht
    refine ⟨t2, Classical.byContradiction fun hn => ho ⟨hv.1, by omega, d, t3, t4⟩⟩

theorem hoPanics_old {v w : Nat} (hv : 3 ≤ v) {ps : List Str} (h : HOPanics D w ps) (hn : ¬HOPanics D v ps) : w ≤ 4 ∧ 5 ≤ v := by
  have key : ∀ {p : Str}, TimeOverflows D w p → w ≤ 4 ∧ (v ≤ 4 → TimeOverflows D v p) := fun ⟨_, h2, h3⟩ => ⟨h2, fun h => ⟨hv, h, h3⟩⟩
  cases h with
  | time h => exact ⟨(key h).1, Classical.byContradiction fun hc => hn (.time ((key h).2 (by omega)))⟩
  | spinner h1 h2 h3 h => exact ⟨(key h).1, Classical.byContradiction fun hc => hn (.spinner h1 h2 h3 ((key h).2 (by omega)))⟩
  | hold h1 h2 h3 h4 h => exact ⟨(key h).1, Classical.byContradiction fun hc => hn (.hold h1 h2 h3 h4 ((key h).2 (by omega)))⟩

theorem object_keeps {v w : Nat} (hv : 3 ≤ v ∧ v ≤ 14) (l : Str) (x : HitObject D)
    (hx : HitObject.parse v l = .ok x) : OkOr (w ≤ 4 ∧ 5 ≤ v) (HitObject.parse w l : Res HOErr (HitObject D)) := by
  obtain ⟨ho, hf⟩ := C59_accepted.1 ⟨x, hx⟩
  cases hr : (HitObject.parse w l : Res HOErr (HitObject D)) with
  | ok y => exact .inl ⟨y, rfl⟩
  | err e => rw [(C59_line.1 hr).2] at hf; cases hf
  | panic => exact .inr ⟨rfl, hoPanics_old hv.1 (C59_panic.1 hr) ho⟩

theorem events_keeps [UniLib] {v w : Nat} (hv : 3 ≤ v ∧ v ≤ 14) (hw3 : 3 ≤ w) {s : Str} {evs : List (Event D)} (h : Events.parse v s = .ok evs) :
    OkOr (w ≤ 4 ∧ 5 ≤ v) (Events.parse w s : Res _ (List (Event D))) := by
  have agrees : ∀ u, AgreesR (Events.parse u s : Res _ (List (Event D))) (Events.parseR u s) := fun u => loop_agrees u [] _ 0 []
  have h5 : ∃ x, (Events.parse 5 s : Res _ (List (Event D))) = .ok x := by
    rcases agrees v with ha | ha
    · rw [h] at ha; cases ha
    · rw [h] at ha
      obtain ⟨x, hx, -⟩ := ((C87_section v s).1 evs).1 ha
      exact ⟨x, hx⟩
  have hR : ∃ x, (Events.parseR w s : Res _ (List (Event D))) = .ok x := by
    obtain ⟨x, hx⟩ := h5
    exact ⟨_, ((C87_section w s).1 _).2 ⟨x, hx, rfl⟩⟩
  rcases agrees w with ha | ha
  · refine .inr ⟨ha, ?_⟩
    by_cases hw : w ≤ 4
    · refine ⟨hw, Classical.byContradiction fun hn => ?_⟩
      rw [Events.read_era (v := w) (w := v) (by intro c hc; simp only [readCuts, List.mem_cons, List.not_mem_nil, or_false] at hc; omega), h] at ha
      cases ha
    · obtain ⟨x, hx⟩ := h5
      rw [Events.read_era (v := w) (w := 5) (by intro c hc; simp only [readCuts, List.mem_cons, List.not_mem_nil, or_false] at hc; omega), hx] at ha
      cases ha
  · obtain ⟨x, hx⟩ := hR
    exact .inl ⟨x, ha ▸ hx⟩

/-- Reading a section in another version. -/
theorem outcome_keeps [UniLib] {n : SName} {v w : Nat} (hv : 3 ≤ v ∧ v ≤ 14) (hw : 3 ≤ w ∧ w ≤ 14) (h : keeps v w n) {body : Str}
    (hr : n.outcome D v body = .ok ()) : n.outcome D w body = .ok () ∨ (n.outcome D w body = .panic ∧ w ≤ 4 ∧ 5 ≤ v) := by
  have fin : ∀ {E E2 α : Type} {into : E → E2} {r : Res (LErr E) α}, OkOr (w ≤ 4 ∧ 5 ≤ v) r →
      (processingLine into r 0 >>= fun _ => .ok ()) = .ok () ∨ ((processingLine into r 0 >>= fun _ => .ok ()) = .panic ∧ w ≤ 4 ∧ 5 ≤ v) := by
    intro E E2 α into r hr
    rcases hr with ⟨x, rfl⟩ | ⟨rfl, hp⟩
    · exact .inl rfl
    · exact .inr ⟨rfl, hp⟩
  cases n with
  | general =>
    obtain ⟨a, ha, -⟩ := processingLine_ok.1 hr
    exact fin (.inl (okOr_kv (General_lawful D) (general_keeps hv hw h) ha))
  | editor =>
    obtain ⟨a, ha, -⟩ := processingLine_ok.1 hr
    exact fin (.inl ⟨a, by rw [Editor.read_era w v]; exact ha⟩)
  | metadata =>
    obtain ⟨a, ha, -⟩ := processingLine_ok.1 hr
    exact fin (.inl ⟨a, by rw [Metadata.read_era w v]; exact ha⟩)
  | difficulty =>
    obtain ⟨a, ha, -⟩ := processingLine_ok.1 hr
    exact fin (.inl ⟨a, by rw [Difficulty.read_era w v]; exact ha⟩)
  | events =>
    obtain ⟨a, ha, -⟩ := processingLine_ok.1 hr
    exact fin (events_keeps hv hw.1 ha)
  | timingPoints =>
    obtain ⟨a, ha, -⟩ := processingLine_ok.1 hr
    exact fin (okOr_lines (point_keeps hv hw h) body ha)
  | colours =>
    obtain ⟨a, ha, -⟩ := processingLine_ok.1 hr
    refine fin (.inl ?_)
    unfold Colours.parse at ha ⊢
    by_cases hc : 3 ≤ w ∧ w ≤ 4
    · rw [if_pos hc]; exact ⟨_, rfl⟩
    · rw [if_neg hc]
      rw [if_neg (by have := h (by omega); omega)] at ha
      exact ⟨a, ha⟩
  | hitobjects =>
    obtain ⟨a, ha, -⟩ := processingLine_ok.1 hr
    exact fin (okOr_lines (object_keeps hv) body ha)

end
end Osu
