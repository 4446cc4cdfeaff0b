/-
C35, exactly: which events are read back unchanged from their text.
-/
import Verif.Props.Events

namespace Osu
open SB Ev
variable {D : Type} [DecLib D]

omit [DecLib D] in
theorem pathOf_withPath {e : Event D} {f g : FilePath} (h : pathOf e = some f) : pathOf (withPath g e) = some g := by
  cases e with
  | object o =>
    obtain ⟨l, og, p, ty, cs⟩ := o
    cases ty <;> rfl
  | comment _ => cases h
  | break_ _ => cases h
  | colourTransformation _ => cases h
  | _ => rfl

omit [DecLib D] in
theorem quoted_eq_iff {e : Event D} : quoted e = e ↔ ∀ f, pathOf e = some f → PathPlain f := by
  refine ⟨fun h f hf => ?_, fun h => quoted_plain h⟩
  unfold quoted at h
  rw [hf] at h
  simp only at h
  have := pathOf_withPath (g := quotePath f) hf
  rw [h, hf] at this
  rw [Option.some.inj this]
  exact quotePath_plain f

theorem map_filter_eq {α : Type} {p : α → Bool} {f : α → α} {l : List α} (h : (l.filter p).map f = l) : ∀ x ∈ l, p x = true ∧ f x = x := by
  have hl : (l.filter p).length = l.length := by rw [← List.length_map (f := f), h]
  have hf : l.filter p = l := List.filter_eq_self.2 (List.length_filter_eq_length_iff.1 hl)
  rw [hf] at h
  intro x hx
  refine ⟨List.length_filter_eq_length_iff.1 hl x hx, ?_⟩
  have : l.map f = l.map id := by rw [h, List.map_id]
  exact List.map_inj_left.1 this x hx

/-- Events in whose text no line ends in a carriage return are read back unchanged exactly if each of them can be written in
the version (its first line and all its commands) and has a path that needs no quotes. -/
theorem C35_iff [UniLib] {v : Nat} {evs : List (Event D)} {s : Str} (hs : Events.shw v evs = some s) (hc : CleanEnds s) :
    Events.parse v s = .ok evs ↔ ∀ e ∈ evs, EvFits v e ∧ ∀ f, pathOf e = some f → PathPlain f := by
  have hE : ∀ es : List (Event D), Events.shw v es = some s → true = true → ∀ t, Events.shw v es = some t → CleanEnds t := by
    intro es hs _ t ht
    rw [hs] at ht; cases ht; exact hc
  constructor
  · intro h e he
    have hw := read_writableC (cr := true) nofun h
    have hs' : Events.shw v (evs.filter (writtenIn v)) = some s := (shwVars_filter v [] evs).trans hs
    obtain ⟨t, h1, h2, -⟩ := events_round_trip_fits (fun e he => hw e (List.mem_filter.1 he).1 (List.mem_filter.1 he).2) (hE _ hs')
    rw [hs'] at h1
    cases h1
    rw [h] at h2
    obtain ⟨h3, h4⟩ := map_filter_eq (Res.ok.inj h2).symm e he
    exact ⟨hw e he h3, quoted_eq_iff.1 h4⟩
  · intro h
    obtain ⟨t, h1, h2, -⟩ := events_round_trip_fits (fun e he => (h e he).1) (hE _ hs)
    rw [hs] at h1
    cases h1
    rw [h2]
    congr 1
    conv => rhs; rw [← List.map_id evs]
    exact List.map_congr_left fun e he => quoted_plain (h e he).2

/-- A path with a blank and without quotes is never read back. -/
example [UniLib] (e : Event Dec96) (s : Str) (hs : Events.shw 14 [e] = some s) (hc : CleanEnds s) (hp : pathOf e = some c!"a b.png") :
    Events.parse 14 s ≠ .ok [e] := by
  rw [Ne, C35_iff hs hc]
  intro h
  have := (h e (by simp)).2 _ hp
  revert this; decide

section
attribute [local instance] asciiUni
private def exLoop : Event Dec96 := .background ⟨0, c!"a.png", none,
  [.mk (some 1) (.loop 2 [.mk (some 3) (.scale .linear none (.ofStr c!"1") [])]), .mk none (.rotate .linear none (.ofStr c!"1") [])]⟩
example : Events.parse 14 c!"0,0,a.png\n L,1,2\n  S,0,3,,1\n R,0,,,1" = .ok [exLoop] :=
  (C35_iff (evs := [exLoop]) (by decide) (cleanEndsB_ok (by decide))).2 fun e he => by
    simp only [List.mem_singleton] at he
    subst he
    refine ⟨⟨⟨by unfold PathWritableC; decide, trivial⟩, ?_⟩, fun f hf => by cases hf; decide⟩
    have hd : FieldDecC true (Decimal.ofStr c!"1" : Decimal Dec96) := decWritable_ofStr (D := Dec96) (f := fieldC true) (s := c!"1") (by decide)
    intro x hx
    have hx : x ∈ [(1, Command.mk (some 1) (.loop 2 [])), (2, .mk (some 3) (.scale .linear none (Decimal.ofStr c!"1") [])),
      (1, .mk none (.rotate .linear none (Decimal.ofStr c!"1") []))] := hx
    simp only [List.mem_cons, List.not_mem_nil, or_false] at hx
    rcases hx with rfl | rfl | rfl
    · trivial
    · exact ⟨trivial, (fun h => by cases h), hd, by simp⟩
    · exact ⟨trivial, (fun _ => rfl), hd, by simp⟩

/-- A carriage return in the middle of a line is kept, one at its end is not. -/
example : Events.parse 14 c!"//a\rb\n//c" = .ok [(.comment c!"a\rb" : Event Dec96), .comment c!"c"] :=
  (C35_iff (evs := [(.comment c!"a\rb" : Event Dec96), .comment c!"c"]) (by decide) (cleanEndsB_ok (by decide))).2 fun e he => by
    simp only [List.mem_cons, List.not_mem_nil, or_false] at he
    rcases he with rfl | rfl <;> exact ⟨⟨(by decide : ∀ c ∈ _, lastC true c = true), (by intro x hx; cases hx)⟩, fun f hf => by cases hf⟩
example : Events.shw 14 [(.comment c!"a\r" : Event Dec96), .comment c!"c"] = some c!"//a\r\n//c" ∧
    Events.parse 14 c!"//a\r\n//c" = .ok [(.comment c!"a" : Event Dec96), .comment c!"c"] := ⟨by decide, by rfl⟩
end

end Osu
