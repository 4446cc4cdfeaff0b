/-
Lemmas on the characters of what is written.
-/
import Verif.Spec.Letters
import Verif.Props.Writing
import Verif.Proof.SavedLines

namespace Osu
open SB Ev Parser

section
variable {s : Str}

theorem NothingForeign.nil : NothingForeign s [] := nofun

theorem nf_append {a b : Str} : NothingForeign s (a ++ b) ↔ NothingForeign s a ∧ NothingForeign s b := by
  unfold NothingForeign
  simp only [List.mem_append]
  exact ⟨fun h => ⟨fun c hc => h c (.inl hc), fun c hc => h c (.inr hc)⟩, fun h c hc => hc.elim (h.1 c) (h.2 c)⟩

theorem nf_cons {c : Char} {b : Str} : NothingForeign s (c :: b) ↔ (c ∈ s ∨ Printable c ∨ c = '\n') ∧ NothingForeign s b := by
  unfold NothingForeign
  simp only [List.mem_cons]
  exact ⟨fun h => ⟨h c (.inl rfl), fun c hc => h c (.inr hc)⟩, fun h d hd => hd.elim (fun e => e ▸ h.1) (h.2 d)⟩

theorem nf_sub {t u : Str} (h : NothingForeign s t) (hu : ∀ c ∈ u, c ∈ t) : NothingForeign s u := fun c hc => h c (hu c hc)

theorem nf_plain {t : Str} (h : t.all (fun c => decide (Printable c)) = true) : NothingForeign s t := fun c hc =>
  .inr (.inl (of_decide_eq_true (List.all_eq_true.1 h c hc)))

theorem printable_digit {c : Char} (h : (digitVal c).isSome = true) : Printable c := by
  unfold digitVal at h
  split at h
  · unfold Printable; omega
  · cases h

theorem printable_dec {c : Char} (h : isDecChar c = true) : Printable c := by
  unfold isDecChar at h
  simp only [Bool.or_eq_true, beq_iff_eq] at h
  rcases h with (h | rfl) | rfl
  · exact printable_digit h
  · decide
  · decide

theorem printable_int {c : Char} (h : isIntChar c = true) : Printable c := by
  unfold isIntChar at h
  simp only [Bool.or_eq_true, beq_iff_eq] at h
  rcases h with h | rfl
  · exact printable_digit h
  · decide

theorem nf_int (n : Int) : NothingForeign s (intToStr n) := fun c hc => .inr (.inl (printable_int (intToStr_chars n c hc)))
theorem nf_nat (n : Nat) : NothingForeign s (natToStr n) := fun c hc => .inr (.inl (printable_int (natToStr_chars n c hc)))

theorem nf_join {sep : Str} {ls : List Str} (hs : NothingForeign s sep) (h : ∀ l ∈ ls, NothingForeign s l) : NothingForeign s (join sep ls) := by
  intro c hc
  rcases mem_join hc with hc | ⟨l, hl, hc⟩
  · exact hs c hc
  · exact h l hl c hc

theorem nf_quote {p : FilePath} (h : NothingForeign s p) : NothingForeign s (quotePath p) := by
  unfold quotePath
  split
  · exact h
  · exact nf_cons.2 ⟨.inr (.inl (by decide)), nf_append.2 ⟨h, nf_plain (by decide)⟩⟩

end

section
variable {D : Type} [DecLib D] {s : Str}

theorem nf_decShw (d : D) : NothingForeign s (DecLib.shw d) := fun c hc => .inr (.inl (printable_dec (DecLib.shw_chars d c hc)))

/-- The piece has no other characters. -/
def Fits (s : Str) : Piece D → Prop
  | .text t => NothingForeign s t
  | .int _ | .moment _ _ => True
  | .number x | .clock _ x => NothingForeign s x.text
  | .path p => NothingForeign s p

theorem tok_fits {p : Piece D} {t : Str} (h : TokSpelt p t) (hp : Fits s p) : NothingForeign s t := by
  cases h with
  | text => exact hp
  | int h => rw [(plainInt_iff _ _).1 h]; exact nf_int _
  | number d => exact nf_decShw d
  | numberText => exact hp
  | clock d => exact nf_decShw d
  | clockOld => exact nf_decShw _
  | clockText => exact hp
  | moment _ h => rw [(plainInt_iff _ _).1 h]; exact nf_int _
  | path p => exact nf_quote hp

theorem spelt_fits {ps : List (Piece D)} {t : Str} (h : Spelt ps t) (hp : ∀ p ∈ ps, Fits s p) : NothingForeign s t := by
  induction h with
  | nil => exact .nil
  | cons h _ ih => exact nf_append.2 ⟨tok_fits h (hp _ (.head _)), ih fun p hp' => hp p (.tail _ hp')⟩

omit [DecLib D] in
theorem put_glue {c : Char} (hc : Printable c ∨ c = '\n') {cols : List (List (Piece D))} (h : ∀ col ∈ cols, ∀ p ∈ col, Fits s p) :
    ∀ p ∈ glue c cols, Fits s p := by
  induction cols with
  | nil => nofun
  | cons x cols ih =>
    cases cols with
    | nil => exact h x (.head _)
    | cons y cols =>
      intro p hp
      rw [glue, List.mem_append, List.mem_cons] at hp
      rcases hp with hp | rfl | hp
      · exact h x (.head _) p hp
      · exact nf_cons.2 ⟨.inr hc, .nil⟩
      · exact ih (fun z hz => h z (.tail _ hz)) p hp

theorem nf_ofStr {x : Str} (h : NothingForeign s x) : NothingForeign s (Decimal.ofStr x : Decimal D).text := by
  unfold Decimal.ofStr
  split
  · exact .nil
  · exact h

omit [DecLib D] in
theorem put_opt (t : Option Int32) : ∀ p ∈ (optTok t : List (Piece D)), Fits s p := by
  cases t with
  | none => nofun
  | some n => intro p hp; cases List.mem_singleton.1 hp; trivial

/-! ### Commands -/

theorem nf_words (ws : List Str) (h : ∀ w ∈ ws, w.all (fun c => decide (Printable c)) = true) : ∀ w ∈ ws, NothingForeign s w :=
  fun w hw => nf_plain (h w hw)

omit [DecLib D] in
theorem put_trigger (t : TriggerType) : ∀ p ∈ (triggerToks t : List (Piece D)), Fits s p := by
  cases t with
  | passing => intro p hp; cases List.mem_singleton.1 hp; exact nf_plain (by decide)
  | failing => intro p hp; cases List.mem_singleton.1 hp; exact nf_plain (by decide)
  | hitSound h =>
    intro p hp
    have a : ∀ x : SB.SampleSet, NothingForeign s ((triggerSets.lookup x).getD []) := fun x => nf_plain (by cases x <;> decide)
    have b : ∀ x : SB.Addition, NothingForeign s ((triggerAdditions.lookup x).getD []) := fun x => nf_plain (by cases x <;> decide)
    unfold triggerToks hitSoundToks at hp
    simp only [List.mem_append] at hp
    rcases hp with (((hp | hp) | hp) | hp) | hp
    · cases List.mem_singleton.1 hp; exact nf_plain (by decide)
    · split at hp
      · cases hp
      · cases List.mem_singleton.1 hp; exact a _
    · split at hp
      · cases hp
      · cases List.mem_singleton.1 hp; exact a _
    · split at hp
      · cases hp
      · cases List.mem_singleton.1 hp; exact b _
    · split at hp
      · cases hp
      · cases List.mem_singleton.1 hp; trivial

omit [DecLib D] in
theorem put_toLast (l : List (Option Int32)) : ∀ col ∈ (colsToLast l : List (List (Piece D))), ∀ p ∈ col, Fits s p := by
  induction l with
  | nil => nofun
  | cons x xs ih =>
    intro col hc
    unfold colsToLast at hc
    split at hc
    · cases hc
    · rcases List.mem_cons.1 hc with rfl | hc
      · exact put_opt x
      · exact ih col hc

theorem put_command [UniLib] {ps : List Str} {c : Command D} (h : CmdReads ps c) (hs : ∀ p ∈ ps, NothingForeign s p) :
    ∀ p ∈ commandToks c, Fits s p := by
  have timed : ∀ {letter : Str} {e : Easing} {st et : Option Int32} {vals : List (List (Piece D))},
      letter.all (fun c => decide (Printable c)) = true → (∀ col ∈ vals, ∀ p ∈ col, Fits s p) →
      ∀ p ∈ glue ',' ([[.text letter], [.int (easingNo e)], optTok st, optTok et] ++ vals), Fits s p := by
    intro letter e st et vals hl hv
    refine put_glue (.inl (by decide)) fun col hc => ?_
    rcases List.mem_append.1 hc with hc | hc
    · simp only [List.mem_cons, List.not_mem_nil, or_false] at hc
      rcases hc with rfl | rfl | rfl | rfl
      · intro p hp; cases List.mem_singleton.1 hp; exact nf_plain hl
      · intro p hp; cases List.mem_singleton.1 hp; trivial
      · exact put_opt _
      · exact put_opt _
    · exact hv col hc
  have nums : ∀ {xs : List (Decimal D)}, (∀ x ∈ xs, NothingForeign s x.text) → ∀ col ∈ xs.map (fun x => [Piece.number x]), ∀ p ∈ col, Fits s p := by
    intro xs h col hc p hp
    obtain ⟨x, hx, rfl⟩ := List.mem_map.1 hc
    cases List.mem_singleton.1 hp
    exact h x hx
  have one : ∀ {xs : List Str}, (∀ x ∈ xs, x ∈ ps) → ∀ y ∈ xs.map Decimal.ofStr, NothingForeign s (y : Decimal D).text := by
    intro xs hx y hy
    obtain ⟨x, hm, rfl⟩ := List.mem_map.1 hy
    exact nf_ofStr (hs x (hx x hm))
  have pairs : ∀ {x y : Str} {xs : List Str}, x ∈ ps → y ∈ ps → (∀ z ∈ xs, z ∈ ps) →
      ∀ z ∈ [(Decimal.ofStr x : Decimal D), .ofStr y] ++ (twoByTwo (xs.map Decimal.ofStr)).flatMap (fun x => x.1 :: x.2.toList),
        NothingForeign s z.text := by
    intro x y xs hx hy hxs z hz
    rcases List.mem_append.1 hz with hz | hz
    · simp only [List.mem_cons, List.not_mem_nil, or_false] at hz
      rcases hz with rfl | rfl
      · exact nf_ofStr (hs _ hx)
      · exact nf_ofStr (hs _ hy)
    · obtain ⟨q, hq, hz⟩ := List.mem_flatMap.1 hz
      obtain ⟨h1, h2⟩ := Command.twoByTwo_mem hq
      rcases List.mem_cons.1 hz with rfl | hz
      · exact one hxs _ h1
      · exact one hxs _ (h2 z (Option.mem_toList.1 hz))
  cases h with
  | fade => exact timed (by decide) (nums (one (xs := _ :: _) (by simp +contextual)))
  | moveX => exact timed (by decide) (nums (one (xs := _ :: _) (by simp +contextual)))
  | moveY => exact timed (by decide) (nums (one (xs := _ :: _) (by simp +contextual)))
  | scale => exact timed (by decide) (nums (one (xs := _ :: _) (by simp +contextual)))
  | rotate => exact timed (by decide) (nums (one (xs := _ :: _) (by simp +contextual)))
  | move => exact timed (by decide) (nums (pairs (by simp) (by simp) (by simp +contextual)))
  | vectorScale => exact timed (by decide) (nums (pairs (by simp) (by simp) (by simp +contextual)))
  | colour =>
    refine timed (by decide) fun col hc p hp => ?_
    obtain ⟨x, -, rfl⟩ := List.mem_map.1 hc
    cases List.mem_singleton.1 hp; trivial
  | parameter =>
    refine timed (by decide) fun col hc p hp => ?_
    obtain ⟨x, -, rfl⟩ := List.mem_map.1 hc
    cases List.mem_singleton.1 hp
    exact nf_plain (by cases x <;> decide)
  | loop =>
    refine put_glue (.inl (by decide)) fun col hc => ?_
    simp only [List.mem_cons, List.not_mem_nil, or_false] at hc
    rcases hc with rfl | rfl | rfl
    · intro p hp; cases List.mem_singleton.1 hp; exact nf_plain (by decide)
    · exact put_opt _
    · intro p hp; cases List.mem_singleton.1 hp; trivial
  | trigger =>
    refine put_glue (.inl (by decide)) fun col hc => ?_
    rcases List.mem_append.1 hc with hc | hc
    · simp only [List.mem_cons, List.not_mem_nil, or_false] at hc
      rcases hc with rfl | rfl
      · intro p hp; cases List.mem_singleton.1 hp; exact nf_plain (by decide)
      · exact put_trigger _
    · exact put_toLast _ col hc

/-! ### Events -/

theorem put_position {ps : List Str} {pos : Option (Position D)} (h : PosReads ps pos) (hs : ∀ p ∈ ps, NothingForeign s p) :
    ∀ col ∈ positionCols pos, ∀ p ∈ col, Fits s p := by
  cases h with
  | none => nofun
  | some x y ys =>
    intro col hc p hp
    simp only [positionCols, List.mem_cons, List.not_mem_nil, or_false] at hc
    rcases hc with rfl | rfl
    · cases List.mem_singleton.1 hp; exact nf_ofStr (hs x (.head _))
    · cases List.mem_singleton.1 hp
      exact nf_ofStr (nf_join (nf_plain (by decide)) fun l hl => hs l (.tail _ hl))

omit [DecLib D] in
theorem put_origin (o : Origin) : Fits s (originTok o : Piece D) := by
  unfold originTok
  split
  · split
    · trivial
    · rename_i t _ _
      exact nf_plain (by cases t <;> decide)
  · trivial

theorem put_first {v : Nat} {ps : List Str} {e : Event D} (h : EvReads v ps e) (hs : ∀ p ∈ ps, NothingForeign s p) :
    ∀ p ∈ eventToks v e, Fits s p := by
  have cols : ∀ {cols : List (List (Piece D))}, (∀ col ∈ cols, ∀ p ∈ col, Fits s p) → ∀ p ∈ glue ',' cols, Fits s p :=
    put_glue (.inl (by decide))
  have txt : ∀ {t : Str}, t.all (fun c => decide (Printable c)) = true → ∀ p ∈ [(Piece.text t : Piece D)], Fits s p := by
    intro t ht p hp; cases List.mem_singleton.1 hp; exact nf_plain ht
  have int : ∀ n : Int, ∀ p ∈ [(Piece.int n : Piece D)], Fits s p := by
    intro n p hp; cases List.mem_singleton.1 hp; trivial
  have mom : ∀ (n : Nat) (t : Int32), ∀ p ∈ [(Piece.moment n t : Piece D)], Fits s p := by
    intro n t p hp; cases List.mem_singleton.1 hp; trivial
  have path : ∀ {f : Str}, f ∈ ps → ∀ p ∈ [(Piece.path f : Piece D)], Fits s p := by
    intro f hf p hp; cases List.mem_singleton.1 hp; exact hs f hf
  have num : ∀ {x : Str}, x ∈ ps → ∀ p ∈ [(Piece.number (.ofStr x) : Piece D)], Fits s p := by
    intro x hx p hp; cases List.mem_singleton.1 hp; exact nf_ofStr (hs x hx)
  cases h with
  | background ht hp =>
    refine cols fun col hc => ?_
    simp only [List.mem_append, List.mem_cons, List.not_mem_nil, or_false] at hc
    rcases hc with (rfl | rfl | rfl) | hc
    · exact txt (by decide)
    · exact int _
    · exact path (by simp)
    · exact put_position hp (fun q hq => hs q (by simp [hq])) col hc
  | @video _ _ _ _ _ _ _ short hh ht hn hp =>
    refine cols fun col hc => ?_
    simp only [List.mem_append, List.mem_cons, List.not_mem_nil, or_false] at hc
    rcases hc with (rfl | rfl | rfl) | hc
    · exact txt (by cases short <;> rfl)
    · exact mom _ _
    · exact path (by simp)
    · exact put_position hp (fun q hq => hs q (by simp [hq])) col hc
  | @break_ _ _ _ _ _ _ _ short hh =>
    refine cols fun col hc => ?_
    simp only [List.mem_cons, List.not_mem_nil, or_false] at hc
    rcases hc with rfl | rfl | rfl
    · exact txt (by cases short <;> rfl)
    · exact mom _ _
    · exact mom _ _
  | colourTransformation =>
    refine cols fun col hc => ?_
    simp only [List.mem_cons, List.not_mem_nil, or_false] at hc
    rcases hc with rfl | rfl | rfl | rfl | rfl
    · exact txt (by decide)
    · exact mom _ _
    · exact int _
    · exact int _
    · exact int _
  | spriteLegacy hl ho hp =>
    refine cols fun col hc => ?_
    simp only [legacyCols, List.mem_append, List.mem_cons, List.not_mem_nil, or_false] at hc
    rcases hc with (rfl | rfl | rfl | rfl) | hc
    · exact txt (by decide)
    · exact int _
    · exact int _
    · exact path (by simp)
    · exact put_position hp (fun q hq => hs q (by simp [hq])) col hc
  | animationLegacy hl ho hp =>
    refine cols fun col hc => ?_
    simp only [legacyCols, List.mem_append, List.mem_cons, List.not_mem_nil, or_false] at hc
    rcases hc with (rfl | rfl | rfl | rfl) | hc
    · exact txt (by decide)
    · exact int _
    · exact int _
    · exact path (by simp)
    · exact put_position hp (fun q hq => hs q (by simp [hq])) col hc
  | sampleLegacy hl hv =>
    refine cols fun col hc => ?_
    simp only [List.mem_append, List.mem_cons, List.not_mem_nil, or_false, Option.mem_toList, Option.map_eq_some_iff] at hc
    rcases hc with (rfl | rfl | rfl | rfl) | ⟨n, -, rfl⟩
    · exact txt (by decide)
    · exact num (by simp)
    · exact int _
    · exact path (by simp)
    · exact int _
  | @sprite l _ _ _ _ _ og ho =>
    refine cols fun col hc => ?_
    simp only [List.mem_cons, List.not_mem_nil, or_false] at hc
    rcases hc with rfl | rfl | rfl | rfl | rfl | rfl
    · exact txt (by decide)
    · exact txt (by cases l <;> decide)
    · intro p hp; cases List.mem_singleton.1 hp; exact put_origin og
    · exact path (by simp)
    · exact num (by simp)
    · exact num (by simp)
  | @animation l _ _ _ _ _ _ _ og _ _ lt ho =>
    refine cols fun col hc => ?_
    simp only [List.mem_append, List.mem_cons, List.not_mem_nil, or_false] at hc
    rcases hc with (rfl | rfl | rfl | rfl | rfl | rfl) | rfl | rfl | rfl
    · exact txt (by decide)
    · exact txt (by cases l <;> decide)
    · intro p hp; cases List.mem_singleton.1 hp; exact put_origin og
    · exact path (by simp)
    · exact num (by simp)
    · exact num (by simp)
    · exact int _
    · intro p hp; cases List.mem_singleton.1 hp; exact .nil
    · exact txt (by cases lt <;> decide)
  | audioSample =>
    refine cols fun col hc => ?_
    simp only [List.mem_cons, List.not_mem_nil, or_false] at hc
    rcases hc with rfl | rfl | rfl | rfl | rfl
    · exact txt (by decide)
    · exact int _
    · exact int _
    · exact path (by simp)
    · exact int _

theorem nf_pieces {l : Str} (h : NothingForeign s l) : ∀ p ∈ splitOnC ',' l, NothingForeign s p := fun _ hp => nf_sub h fun _ hc => splitOnC_sub hp hc

theorem put_head {v : Nat} {l : Str} {e : Event D} (h : HeadReads v l e) (hl : NothingForeign s l) : ∀ p ∈ eventToks v e, Fits s p := by
  cases h with
  | comment t =>
    intro p hp
    simp only [eventToks, List.mem_cons, List.not_mem_nil, or_false] at hp
    rcases hp with rfl | rfl
    · exact nf_plain (by decide)
    · exact nf_sub hl fun c hc => by simp [hc]
  | event h => exact put_first h (nf_pieces hl)

omit [DecLib D] in
theorem eventToks_set (v : Nat) (e : Event D) (cs : List (Command D)) : eventToks v (e.setCommands cs) = eventToks v e := by
  cases e <;> rfl

variable [UniLib]

theorem put_cmdLine {l : Str} {x : Nat × Command D} (hl : NothingForeign s l) (h : CmdLineReads l x) : ∀ p ∈ commandToks x.2, Fits s p :=
  put_command h.2.2.2 (nf_pieces (nf_sub hl fun _ hc => List.dropWhile_subset _ hc))

omit [UniLib] in
theorem put_cmdLines {R : Str → Nat × Command D → Prop} (hR : ∀ l x, NothingForeign s l → R l x → ∀ p ∈ commandToks x.2, Fits s p)
    {ls : List Str} {xs : List (Nat × Command D)} (h : CmdLines R ls xs)
    (hl : ∀ l ∈ ls, NothingForeign s l) : ∀ x ∈ xs, ∀ p ∈ commandToks x.2, Fits s p := by
  induction h with
  | nil => nofun
  | @cons l x ls xs h _ ih =>
    intro y hy
    rcases List.mem_cons.1 hy with rfl | hy
    · exact hR l _ (hl l (.head _)) h
    · exact ih (fun l hm => hl l (.tail _ hm)) y hy

omit [UniLib] in
theorem put_section {v : Nat} {R : Str → Nat × Command D → Prop}
    (hR : ∀ l x, NothingForeign s l → R l x → ∀ p ∈ commandToks x.2, Fits s p) {ls : List Str} {evs : List (Event D)}
    (h : SectionReads v R ls evs) (hl : ∀ l ∈ ls, NothingForeign s l) : ∀ e ∈ evs, ∀ col ∈ eventLines v e, ∀ p ∈ col, Fits s p := by
  induction h with
  | nil => nofun
  | @cons hd cls ls e evs hh hc _ ih =>
    intro e' he'
    rcases List.mem_cons.1 he' with rfl | he'
    · intro col hcol
      rcases List.mem_cons.1 hcol with rfl | hcol
      · rw [← eventToks_set v _ []]; exact put_head hh (hl hd (by simp))
      · obtain ⟨x, hx, rfl⟩ := List.mem_map.1 hcol
        intro p hp
        rcases List.mem_cons.1 hp with rfl | hp
        · intro c hc'; rw [List.eq_of_mem_replicate hc']; exact .inr (.inl (by decide))
        · exact put_cmdLines hR hc (fun l hm => hl l (by simp [hm])) x hx p hp
    · exact ih (fun l hm => hl l (by simp [hm])) e' he'

omit [DecLib D] [UniLib] in
theorem nf_lines {t : Str} (h : NothingForeign s t) : ∀ l ∈ lines t, NothingForeign s l := fun l hl => nf_sub h fun c hc => by
  obtain ⟨a, b, e, -⟩ := lines_mem_at hl
  rw [e]; simp [hc]

theorem nf_events {v : Nat} {b t : Str} {es : List (Event D)} (hb : NothingForeign s b) (h : Events.parse v b = .ok es)
    (ht : Events.shw v es = some t) : NothingForeign s t := by
  rw [events_reads] at h
  refine spelt_fits ((C81_events v es t).1 ht) (put_glue (.inr rfl) fun col hc => ?_)
  obtain ⟨e, he, hc⟩ := List.mem_flatMap.1 hc
  exact put_section (fun _ _ => put_cmdLine) h (fun l hl => nf_lines hb l (List.mem_filter.1 hl).1) e (List.mem_filter.1 he).1 col hc

/-! ### Timing points and hit objects -/

theorem nf_timingPoints {v : Nat} {b t : Str} {l : List (TimingPoint D)} (hb : NothingForeign s b) (h : TimingPoints.parse v b = .ok l)
    (ht : TimingPoints.shw v l = some t) : NothingForeign s t := by
  refine spelt_fits ((C81_timing_points v l t).1 ht) (put_glue (.inr rfl) fun col hc => ?_)
  obtain ⟨x, hx, rfl⟩ := List.mem_map.1 hc
  obtain ⟨u, hu, -, hr⟩ := parseLines_mem h x hx
  have key : NothingForeign s x.time.text ∧ NothingForeign s x.beatLength.text :=
    ⟨nf_sub (nf_lines hb u hu) fun c hc => tp_texts hr (.inl hc), nf_sub (nf_lines hb u hu) fun c hc => tp_texts hr (.inr hc)⟩
  refine put_glue (.inl (by decide)) fun col hc => ?_
  have flag : ∀ b, Fits s (flagTok b : Piece D) := fun b => nf_plain (by cases b <;> decide)
  simp only [List.mem_append] at hc
  rcases hc with (hc | hc) | hc
  · simp only [List.mem_cons, List.not_mem_nil, or_false] at hc
    rcases hc with rfl | rfl
    · intro p hp; cases List.mem_singleton.1 hp; exact key.1
    · intro p hp; cases List.mem_singleton.1 hp; exact key.2
  · split at hc
    · simp only [List.mem_cons, List.not_mem_nil, or_false] at hc
      rcases hc with rfl | rfl | rfl <;> (intro p hp; cases List.mem_singleton.1 hp; trivial)
    · cases hc
  · split at hc
    · rcases List.mem_cons.1 hc with rfl | hc
      · intro p hp; cases List.mem_singleton.1 hp; trivial
      · split at hc
        · cases hc
        · cases List.mem_singleton.1 hc; intro p hp; cases List.mem_singleton.1 hp; exact flag _
        · simp only [List.mem_cons, List.not_mem_nil, or_false] at hc
          rcases hc with rfl | rfl
          · nofun
          · intro p hp; cases List.mem_singleton.1 hp; trivial
        · simp only [List.mem_cons, List.not_mem_nil, or_false] at hc
          rcases hc with rfl | rfl
          · intro p hp; cases List.mem_singleton.1 hp; exact flag _
          · intro p hp; cases List.mem_singleton.1 hp; trivial
    · cases hc

omit [UniLib] in
theorem put_object {v w : Nat} {u : Str} {o : HitObject D} (h : HitObject.parse v u = .ok o) (hu : NothingForeign s u) :
    ∀ p ∈ objectToks w o, Fits s p := by
  have key : ∀ t ∈ o.texts ++ o.pointTexts, NothingForeign s t := fun t ht c hc => by
    by_cases hcm : c = ','
    · subst hcm; exact .inr (.inl (by decide))
    · exact hu c (ho_texts h hcm ht hc)
  have int : ∀ n : Int, ∀ p ∈ [(Piece.int n : Piece D)], Fits s p := by
    intro n p hp; cases List.mem_singleton.1 hp; trivial
  have num : ∀ {x : Decimal D}, x.text ∈ o.texts ++ o.pointTexts → ∀ p ∈ [(Piece.number x : Piece D)], Fits s p := by
    intro x hx p hp; cases List.mem_singleton.1 hp; exact key _ hx
  have clock : ∀ {x : Decimal D}, x.text ∈ o.texts ++ o.pointTexts → ∀ p ∈ [(Piece.clock w x : Piece D)], Fits s p := by
    intro x hx p hp; cases List.mem_singleton.1 hp; exact key _ hx
  have head : ∀ col ∈ headCols w o, ∀ p ∈ col, Fits s p := by
    intro col hc
    simp only [headCols, List.mem_cons, List.not_mem_nil, or_false] at hc
    rcases hc with rfl | rfl | rfl | rfl | rfl
    · exact num (by simp [HitObject.texts])
    · exact num (by simp [HitObject.texts])
    · exact clock (by simp [HitObject.texts])
    · exact int _
    · exact int _
  have smp : ∀ col ∈ sampleCol w o.hitsample, ∀ p ∈ col, Fits s (p : Piece D) := by
    intro col hc
    cases ho : o.hitsample with
    | none => rw [ho] at hc; cases hc
    | some hs =>
      rw [ho] at hc
      unfold sampleCol at hc
      simp only at hc
      split at hc
      · cases hc
      · cases List.mem_singleton.1 hc
        refine put_glue (.inl (by decide)) fun col hc => ?_
        rcases List.mem_append.1 hc with hc | hc
        · simp only [List.mem_cons, List.not_mem_nil, or_false] at hc
          rcases hc with rfl | rfl | rfl <;> exact int _
        · split at hc
          · cases hc
          · simp only [List.mem_cons, List.not_mem_nil, or_false] at hc
            rcases hc with rfl | rfl
            · exact int _
            · intro p hp; cases List.mem_singleton.1 hp; exact key hs.filename (by simp [HitObject.texts, ho])
  have point : ∀ {q : Position D}, q.x.text ∈ o.texts ++ o.pointTexts → q.y.text ∈ o.texts ++ o.pointTexts → ∀ p ∈ curvePointToks q, Fits s p := by
    intro q hx hy
    refine put_glue (.inl (by decide)) fun col hc => ?_
    simp only [List.mem_cons, List.not_mem_nil, or_false] at hc
    rcases hc with rfl | rfl
    · exact num hx
    · exact num hy
  unfold objectToks
  cases hp : o.params with
  | hitCircle =>
    intro p hm
    rcases List.mem_append.1 hm with hm | hm
    · exact put_glue (.inl (by decide)) (fun col hc => (List.mem_append.1 hc).elim (head col) (smp col)) p hm
    · split at hm
      · cases List.mem_singleton.1 hm; exact nf_plain (by decide)
      · cases hm
  | slider q =>
    refine put_glue (.inl (by decide)) fun col hc => ?_
    simp only [List.mem_append] at hc
    rcases hc with (hc | hc) | hc
    · exact head col hc
    · simp only [sliderCols, List.mem_append] at hc
      rcases hc with (hc | hc) | hc
      · simp only [List.mem_cons, List.not_mem_nil, or_false] at hc
        rcases hc with rfl | rfl | rfl
        · refine put_glue (.inl (by decide)) fun col hc => ?_
          rcases List.mem_cons.1 hc with rfl | hc
          · intro p hp; cases List.mem_singleton.1 hp; exact nf_plain (by cases q.curveType <;> decide)
          · obtain ⟨z, hz, rfl⟩ := List.mem_map.1 hc
            rcases List.mem_append.1 hz with hz | hz
            · split at hz
              · cases List.mem_singleton.1 hz
                exact point (by simp [HitObject.texts]) (by simp [HitObject.texts])
              · cases hz
            · obtain ⟨a, ha, rfl⟩ := List.mem_map.1 hz
              exact point (by simp [HitObject.pointTexts, hp]; exact .inr ⟨a, ha, .inl rfl⟩) (by simp [HitObject.pointTexts, hp]; exact .inr ⟨a, ha, .inr rfl⟩)
        · exact int _
        · exact num (by simp [HitObject.texts, hp])
      · split at hc
        · cases List.mem_singleton.1 hc
          refine put_glue (.inl (by decide)) fun col hc => ?_
          obtain ⟨a, -, rfl⟩ := List.mem_map.1 hc
          exact int _
        · cases hc
      · split at hc
        · cases List.mem_singleton.1 hc
          refine put_glue (.inl (by decide)) fun col hc => ?_
          obtain ⟨a, -, rfl⟩ := List.mem_map.1 hc
          refine put_glue (.inl (by decide)) fun col hc => ?_
          simp only [List.mem_cons, List.not_mem_nil, or_false] at hc
          rcases hc with rfl | rfl <;> exact int _
        · cases hc
    · exact smp col hc
  | spinner e =>
    refine put_glue (.inl (by decide)) fun col hc => ?_
    simp only [List.mem_append] at hc
    rcases hc with (hc | hc) | hc
    · exact head col hc
    · cases List.mem_singleton.1 hc; exact clock (by simp [HitObject.texts, hp])
    · exact smp col hc
  | hold e =>
    refine put_glue (.inl (by decide)) fun col hc => ?_
    rcases List.mem_append.1 hc with hc | hc
    · exact head col hc
    · cases List.mem_singleton.1 hc
      intro p hm
      rcases List.mem_append.1 hm with hm | hm
      · simp only [List.mem_cons, List.not_mem_nil, or_false] at hm
        rcases hm with rfl | rfl
        · exact key _ (by simp [HitObject.texts, hp])
        · exact nf_plain (by decide)
      · obtain ⟨col, hc, hm⟩ := List.mem_flatten.1 hm
        exact smp col hc p hm

theorem nf_hitObjects {v : Nat} {b t : Str} {l : List (HitObject D)} (hb : NothingForeign s b) (h : HitObjects.parse v b = .ok l)
    (ht : HitObjects.shw v l = some t) : NothingForeign s t := by
  have hl : ∀ o ∈ l, ∃ u ∈ lines b, HitObject.parse v u = .ok o := fun o ho => by
    obtain ⟨u, hu, -, hr⟩ := parseLines_mem h o ho
    exact ⟨u, hu, hr⟩
  refine spelt_fits ((C81_hit_objects v l (fun o ho => by obtain ⟨u, -, hr⟩ := hl o ho; exact C24_combo_skip_read hr) t).1 ht)
    (put_glue (.inr rfl) fun col hc => ?_)
  obtain ⟨o, ho, rfl⟩ := List.mem_map.1 hc
  obtain ⟨u, hu, hr⟩ := hl o ho
  exact put_object hr (nf_lines hb u hu)

/-! ### Fields -/

omit [UniLib] in
theorem nf_shows {v : Nat} {x t : Str} {k : FKind} {y : FVal D} (h : FMeans v x (some y) k) (hs : NothingForeign s x) (ht : FShows t y) :
    NothingForeign s t := by
  cases k with
  | text => cases h; rw [show t = x from ht]; exact hs
  | integer =>
    obtain ⟨n, -, e⟩ := h; cases e
    rw [(plainInt_iff t _).1 ht]; exact nf_int _
  | flag =>
    rcases h with ⟨-, e⟩ | ⟨-, e⟩ <;> (cases e; rw [show t = _ from ht]; exact nf_plain (by decide))
  | number =>
    rcases h with ⟨d, -, e⟩ | ⟨-, e⟩
    · cases e
      rw [show t = _ from ht]
      exact nf_decShw d
    · cases e; rw [show t = x from ht]; exact hs
  | integers =>
    have key : ∀ (ps : List Str) (l : List Int32), Spelled PlainInt ps l → NothingForeign s (join [','] ps) := by
      intro ps l h
      refine nf_join (nf_plain (by decide)) ?_
      induction h with
      | nil => nofun
      | cons h _ ih =>
        intro p hp
        rcases List.mem_cons.1 hp with rfl | hp
        · rw [(plainInt_iff _ _).1 h]; exact nf_int _
        · exact ih p hp
    rcases h with ⟨-, e⟩ | ⟨_, l, -, -, -, e⟩ <;>
      (cases e; obtain ⟨ps, rfl, hp⟩ := ht; exact key _ _ hp)
  | words => obtain ⟨l, -, -, rfl, e⟩ := h; cases e; rw [show t = _ from ht]; exact hs
  | countdown =>
    rcases h with ⟨-, e⟩ | ⟨-, c, -, e⟩ <;> cases e
    rw [(plainNat_iff t _).1 ht]; exact nf_nat _
  | sampleSet =>
    rcases h with ⟨-, e⟩ | ⟨-, c, -, e⟩ <;> cases e
    rw [show t = _ from ht]; exact nf_plain (by cases c <;> decide)
  | mode =>
    obtain ⟨m, -, ⟨-, e⟩ | ⟨-, e⟩⟩ := h <;> cases e
    rw [(plainNat_iff t _).1 ht]; exact nf_nat _
  | overlay =>
    rcases h with ⟨-, e⟩ | ⟨-, c, -, e⟩ <;> cases e
    rw [show t = _ from ht]; exact nf_plain (by cases c <;> decide)

omit [DecLib D] [UniLib] in
theorem nf_entries {x r : Str} {es : List (KVLine × Str)} (h : KVEntries x es r) : ∀ e ∈ es, ∀ c ∈ e.1.value, c ∈ x := by
  induction h with
  | nil => nofun
  | cons hk hw hv hh hg hb hs he h ih =>
    intro e he c hc
    rcases List.mem_cons.1 he with rfl | he
    · have hc : c ∈ KVLine.value _ := hc
      simp [KVLine.text, hc]
    · have := ih e he c hc
      simp [this]

omit [UniLib] in
theorem nf_fields {v : Nat} {space : Str → Str} (hsp : ∀ t, NothingForeign s (space t)) {es : List (KVLine × Str)} {view : FView D} {t : Str}
    (hn : ∀ p ∈ view, NothingForeign s p.1.name) (hr : FReads v es view) (he : ∀ e ∈ es, NothingForeign s e.1.value)
    (hw : FWritten v space view t) : NothingForeign s t := by
  obtain ⟨ls, hl, rfl⟩ := hw
  refine nf_join (fun c hc => .inr (.inr (List.mem_singleton.1 hc))) ?_
  have hm : ∀ p ∈ view, ∀ x, p.2 = some x → ∀ t, FShows t x → NothingForeign s t := by
    intro p hp x hx t ht
    rcases hr.2.2 p hp with ⟨e, h1, -, h2⟩ | ⟨-, h⟩
    · rw [hx] at h2; exact nf_shows h2 (he e h1) ht
    · rw [h] at hx; cases hx
  clear hr
  induction hl with
  | nil => nofun
  | skip _ _ ih => exact ih (fun p hp => hn p (.tail _ hp)) fun p hp => hm p (.tail _ hp)
  | @line f x view ls q hw hs _ ih =>
    intro l hl
    rcases List.mem_cons.1 hl with rfl | hl
    · exact nf_append.2 ⟨hn _ (.head _), nf_cons.2 ⟨.inr (.inl (by decide)), nf_append.2 ⟨hsp _, hm _ (.head _) x rfl q hs⟩⟩⟩
    · exact ih (fun p hp => hn p (.tail _ hp)) (fun p hp => hm p (.tail _ hp)) l hl

omit [DecLib D] [UniLib] in
theorem nf_names {view : FView D} (h : ∀ n ∈ view.map (fun p => p.1.name), n.all (fun c => decide (Printable c)) = true) :
    ∀ p ∈ view, NothingForeign s p.1.name := fun p hp => nf_plain (h _ (List.mem_map_of_mem hp))

/-! ### Files -/

/-- Each section of a loaded file was read from a part of the text. -/
theorem loaded_bodies {t : Str} {f : OsuFile D} (h : OsuFile.parse t = .ok f) (n : SName) :
    SectAbsent f n ∨ ∃ body, (∀ c ∈ body, c ∈ t ∨ c = '\n') ∧ SectReads f.version f body n := by
  obtain ⟨ws, num, r, pre, xs, rest, hv, hk, hl, hp, hf⟩ := (C53_exact t f).1 h
  obtain ⟨-, h2, h3, h4, h5⟩ := hf
  obtain ⟨ls, k1, -, -, k4⟩ := hl
  obtain ⟨⟨bom, -, e⟩, -⟩ := hv
  by_cases hn : n.text ∈ xs.map Sect.name
  · right
    obtain ⟨x, hx, e'⟩ := List.mem_map.1 hn
    obtain ⟨g1, m, g2, g3⟩ := h4 x hx
    have := SName.text_inj (g2.trans e')
    subst this
    refine ⟨x.body, fun c hc => ?_, g3⟩
    obtain ⟨⟨a, b, e1, -⟩, -⟩ := sections_bodies k4 x hx g1
    have hj : c ∈ join ['\n'] ls := by rw [e1]; simp [hc]
    rcases mem_join hj with hj | ⟨l, hl, hj⟩
    · exact .inr (List.mem_singleton.1 hj)
    · left
      obtain ⟨p, q, e2, -⟩ := lines_mem_at (s := r) (l := l) (by rw [k1]; simp [hl])
      rw [e, e2]; simp [hj]
  · exact .inl (h5 n hn)

theorem nf_sect {f : OsuFile D} {x t : Str} (h : OsuFile.parse x = .ok f) {n : SName} (hp : SectPrints f (some t) n) : NothingForeign x t := by
  have blank1 : ∀ t : Str, NothingForeign x ((fun _ : Str => [' ']) t) := fun _ => nf_plain (t := [' ']) (by decide)
  rcases loaded_bodies h n with ha | ⟨body, hb, hr⟩
  · exfalso
    cases n with
    | general => rw [SectPrints, show f.general = none from ha] at hp; cases hp
    | editor => rw [SectPrints, show f.editor = none from ha] at hp; cases hp
    | metadata => rw [SectPrints, show f.metadata = none from ha] at hp; cases hp
    | difficulty => rw [SectPrints, show f.difficulty = none from ha] at hp; cases hp
    | colours => rw [SectPrints, show f.colours = none from ha] at hp; cases hp
    | events =>
      rcases hp with ⟨-, e⟩ | ⟨_, _, e, -⟩
      · cases e
      · rw [show f.events = none from ha] at e; cases e
    | timingPoints =>
      rcases hp with ⟨-, e⟩ | ⟨_, _, e, -⟩
      · cases e
      · rw [show f.timingPoints = none from ha] at e; cases e
    | hitobjects =>
      rcases hp with ⟨-, e⟩ | ⟨_, _, e, -⟩
      · cases e
      · rw [show f.hitobjects = none from ha] at e; cases e
  · have hb : NothingForeign x body := fun c hc => (hb c hc).imp_right .inr
    have vals : ∀ {es : List (KVLine × Str)} {r : Str}, KVEntries body es r → ∀ e ∈ es, NothingForeign x e.1.value :=
      fun hk e he => nf_sub hb (nf_entries hk e he)
    cases n with
    | general =>
      obtain ⟨y, h1, e⟩ := hr
      rw [SectPrints, e] at hp; cases hp
      obtain ⟨es, r, hk, -, hf⟩ := (C79_general_read _ _ _).1 h1
      exact nf_fields blank1 (nf_names (by simp only [generalView, List.map_cons, List.map_nil]; decide)) hf (vals hk.1)
        ((C79_general_written _ _ _).1 rfl)
    | editor =>
      obtain ⟨y, h1, e⟩ := hr
      rw [SectPrints, e] at hp; cases hp
      obtain ⟨es, r, hk, -, hf⟩ := (C79_editor_read _ _ _).1 h1
      exact nf_fields blank1 (nf_names (by simp only [editorView, List.map_cons, List.map_nil]; decide)) hf (vals hk.1)
        ((C79_editor_written _ _ _).1 rfl)
    | metadata =>
      obtain ⟨y, h1, e⟩ := hr
      rw [SectPrints, e] at hp; cases hp
      obtain ⟨es, r, hk, -, hf⟩ := (C79_metadata_read D _ _ _).1 h1
      exact nf_fields (fun _ => .nil) (nf_names (by simp only [metadataView, List.map_cons, List.map_nil]; decide)) hf (vals hk.1)
        ((C79_metadata_written D _ _ _).1 rfl)
    | difficulty =>
      obtain ⟨y, h1, e⟩ := hr
      rw [SectPrints, e] at hp; cases hp
      obtain ⟨es, r, hk, -, hf⟩ := (C79_difficulty_read _ _ _).1 h1
      exact nf_fields (fun _ => by unfold difficultySpace; split <;> exact nf_plain (by decide))
        (nf_names (by simp only [difficultyView, List.map_cons, List.map_nil]; decide)) hf (vals hk.1)
        ((C79_difficulty_written _ _ _).1 rfl)
    | colours =>
      have hp : f.colours.bind (Colours.shw f.version) = some t := Eq.symm hp
      obtain ⟨l, -, hp⟩ := Option.bind_eq_some_iff.1 hp
      obtain ⟨-, hs⟩ := (C81_colours (D := D) _ _ _).1 hp
      refine spelt_fits hs (put_glue (.inr rfl) fun col hc => ?_)
      obtain ⟨c, -, rfl⟩ := List.mem_map.1 hc
      have rgb : ∀ r : Rgb, ∀ p ∈ (colourToks.rgb r : List (Piece D)), Fits x p := by
        intro r
        refine put_glue (.inl (by decide)) fun col hc => ?_
        simp only [List.mem_cons, List.not_mem_nil, or_false] at hc
        rcases hc with rfl | rfl | rfl <;> (intro p hp; cases List.mem_singleton.1 hp; trivial)
      intro p hp
      cases c with
      | combo n c =>
        rcases List.mem_append.1 hp with hp | hp
        · simp only [List.mem_cons, List.not_mem_nil, or_false] at hp
          rcases hp with rfl | rfl | rfl
          · exact nf_plain (by decide)
          · trivial
          · exact nf_plain (by decide)
        · exact rgb _ p hp
      | sliderTrackOverride c =>
        rcases List.mem_append.1 hp with hp | hp
        · simp only [List.mem_cons, List.not_mem_nil, or_false] at hp
          rcases hp with rfl | rfl <;> exact nf_plain (by decide)
        · exact rgb _ p hp
      | sliderBorder c =>
        rcases List.mem_append.1 hp with hp | hp
        · simp only [List.mem_cons, List.not_mem_nil, or_false] at hp
          rcases hp with rfl | rfl <;> exact nf_plain (by decide)
        · exact rgb _ p hp
    | events =>
      obtain ⟨y, h1, e⟩ := hr
      rcases hp with ⟨-, e'⟩ | ⟨z, u, e', hu, e2⟩
      · cases e'
      · cases e2; rw [e] at e'; cases e'; exact nf_events hb h1 hu
    | timingPoints =>
      obtain ⟨y, h1, e⟩ := hr
      rcases hp with ⟨-, e'⟩ | ⟨z, u, e', hu, e2⟩
      · cases e'
      · cases e2; rw [e] at e'; cases e'; exact nf_timingPoints hb h1 hu
    | hitobjects =>
      obtain ⟨y, h1, e⟩ := hr
      rcases hp with ⟨-, e'⟩ | ⟨z, u, e', hu, e2⟩
      · cases e'
      · cases e2; rw [e] at e'; cases e'; exact nf_hitObjects hb h1 hu

/-- What is saved of a loaded file has no foreign characters. -/
theorem nf_file {f : OsuFile D} {x t : Str} (h : OsuFile.parse x = .ok f) (ht : f.shw = some t) : NothingForeign x t := by
  obtain ⟨p, hp, rfl⟩ := shw_iff.1 ht
  have lf : NothingForeign x ['\n', '\n'] := fun c hc => .inr (.inr (by simpa using hc))
  refine nf_append.2 ⟨nf_append.2 ⟨nf_append.2 ⟨nf_plain (by decide), nf_nat _⟩, lf⟩, nf_join lf fun l hl => ?_⟩
  obtain ⟨b, hb, rfl⟩ := List.mem_map.1 hl
  obtain ⟨n, h1, h2⟩ := listed_mem.1 hb
  refine nf_append.2 ⟨nf_append.2 ⟨nf_append.2 ⟨nf_plain (by decide), ?_⟩, ?_⟩, ?_⟩
  · rw [← h2]; exact nf_plain (by cases n <;> decide)
  · exact nf_cons.2 ⟨.inr (.inl (by decide)), fun c hc => .inr (.inr (List.mem_singleton.1 hc))⟩
  · exact nf_sect h (h1 ▸ hp n)

end

end Osu
