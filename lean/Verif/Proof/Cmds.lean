/-
Command lines: the parser accepts exactly the grammar of Spec/Cmds.
-/
import Verif.Spec.Cmds
import Verif.Proof.Pieces

namespace Osu
namespace Parser
variable {γ α β ε : Type}

theorem pair_eq_ok {p : Parser γ α} {q : Parser γ β} {s r : Str} {x : α × β} :
    pair p q s = .ok r x ↔ ∃ r1, p s = .ok r1 x.1 ∧ q r1 = .ok r x.2 := by
  unfold pair
  simp only [bind_eq_ok, ret_eq_ok]
  constructor
  · rintro ⟨r1, a, h1, r2, b, h2, rfl, rfl⟩; exact ⟨r1, h1, h2⟩
  · rintro ⟨r1, h1, h2⟩; exact ⟨r1, _, h1, r, _, h2, rfl, rfl⟩

theorem verify_eq_ok {p : Parser γ α} {f : α → Bool} {s r : Str} {a : α} :
    verify p f s = .ok r a ↔ p s = .ok r a ∧ f a = true := by
  unfold verify
  cases hp : p s with
  | ok r1 a1 =>
    simp only
    split
    · rename_i hf
      constructor
      · intro h; cases h; exact ⟨rfl, hf⟩
      · rintro ⟨h, _⟩; exact h
    · rename_i hf
      constructor
      · intro h; cases h
      · rintro ⟨h, h'⟩; cases h; exact absurd h' hf
  | _ => simp

theorem peek_eq_ok {p : Parser γ α} {s r : Str} {a : α} :
    peek p s = .ok r a ↔ r = s ∧ ∃ r1, p s = .ok r1 a := by
  unfold peek
  cases hp : p s with
  | ok r1 a1 =>
    simp only
    constructor
    · intro h; cases h; exact ⟨rfl, r1, rfl⟩
    · rintro ⟨rfl, r2, h⟩; cases h; rfl
  | _ => simp

theorem mapOpt_eq_ok {p : Parser γ α} {f : α → Option β} {s r : Str} {b : β} :
    mapOpt p f s = .ok r b ↔ ∃ a, p s = .ok r a ∧ f a = some b := by
  unfold mapOpt
  cases hp : p s with
  | ok r1 a1 =>
    simp only
    cases hf : f a1 with
    | none =>
      constructor
      · intro h; cases h
      · rintro ⟨a, h, h'⟩; cases h; rw [hf] at h'; cases h'
    | some b1 =>
      constructor
      · intro h; cases h; exact ⟨a1, rfl, hf⟩
      · rintro ⟨a, h, h'⟩; cases h; rw [hf] at h'; cases h'; rfl
  | _ => simp

theorem many0_iff {p : Parser γ α} {s r : Str} {as : List α} :
    many0 p s = .ok r as ↔ (∃ e, p s = .error e ∧ r = s ∧ as = []) ∨
      ∃ r1 a as', p s = .ok r1 a ∧ r1.length < s.length ∧ many0 p r1 = .ok r as' ∧ as = a :: as' := by
  constructor
  · intro h
    have h0 := h
    unfold many0 at h
    rw [many0F] at h
    cases hp : p s with
    | ok r1 a =>
      simp only [hp] at h
      split at h
      · rename_i hl
        rw [many0F_fuel p s.length (r1.length + 1) r1 hl (by omega)] at h
        split at h
        · rename_i r' as' hm
          cases h
          exact .inr ⟨r1, a, as', rfl, hl, hm, rfl⟩
        · rename_i x hx
          exact absurd h (hx _ _)
      · cases h
    | error e => simp only [hp] at h; cases h; exact .inl ⟨e, rfl, rfl, rfl⟩
    | failure e => simp only [hp] at h; cases h
    | panic => simp only [hp] at h; cases h
  · rintro (⟨e, h, rfl, rfl⟩ | ⟨r1, a, as', h, hl, hr, rfl⟩)
    · exact many0_nil h
    · exact many0_cons h hl hr

/-- A parser that succeeds or backtracks. -/
def Soft (p : Parser γ α) : Prop := ∀ s, (∃ r a, p s = .ok r a) ∨ ∃ e, p s = .error e

theorem Soft.tag (t : Str) : Soft (tag t : Parser γ Str) := by
  intro s; unfold Parser.tag; split
  · exact .inl ⟨_, _, rfl⟩
  · exact .inr ⟨_, rfl⟩

theorem Soft.comma : Soft (comma : Parser γ Str) := Soft.tag _

theorem Soft.eof : Soft (eof : Parser γ Str) := by
  intro s; cases s
  · exact .inl ⟨_, _, rfl⟩
  · exact .inr ⟨_, rfl⟩

theorem Soft.rest : Soft (rest : Parser γ Str) := fun _ => .inl ⟨_, _, rfl⟩

theorem Soft.commaField : Soft (commaField : Parser γ Str) := fun _ => .inl ⟨_, _, rfl⟩

theorem Soft.bind {p : Parser γ α} {f : α → Parser γ β} (h : Soft p) (h' : ∀ a, Soft (f a)) : Soft (p.bind f) := by
  intro s
  unfold Parser.bind
  rcases h s with ⟨r, a, hp⟩ | ⟨e, hp⟩
  · rw [hp]; exact h' a r
  · rw [hp]; exact .inr ⟨e, rfl⟩

theorem Soft.ret (a : α) : Soft (ret a : Parser γ α) := fun _ => .inl ⟨_, _, rfl⟩

theorem Soft.pair {p : Parser γ α} {q : Parser γ β} (h : Soft p) (h' : Soft q) : Soft (pair p q) :=
  h.bind fun _ => h'.bind fun _ => .ret _

theorem Soft.preceded {p : Parser γ α} {q : Parser γ β} (h : Soft p) (h' : Soft q) : Soft (preceded p q) :=
  h.bind fun _ => h'

theorem Soft.map {p : Parser γ α} {f : α → β} (h : Soft p) : Soft (map p f) := by
  intro s
  unfold Parser.map
  rcases h s with ⟨r, a, hp⟩ | ⟨e, hp⟩
  · rw [hp]; exact .inl ⟨_, _, rfl⟩
  · rw [hp]; exact .inr ⟨e, rfl⟩

theorem Soft.peek {p : Parser γ α} (h : Soft p) : Soft (peek p) := by
  intro s
  unfold Parser.peek
  rcases h s with ⟨r, a, hp⟩ | ⟨e, hp⟩
  · rw [hp]; exact .inl ⟨_, _, rfl⟩
  · rw [hp]; exact .inr ⟨e, rfl⟩

theorem Soft.context {c : γ} {p : Parser γ α} (h : Soft p) : Soft (context c p) := by
  intro s
  unfold Parser.context
  rcases h s with ⟨r, a, hp⟩ | ⟨e, hp⟩
  · rw [hp]; exact .inl ⟨_, _, rfl⟩
  · rw [hp]; exact .inr ⟨_, rfl⟩

theorem Soft.verify {p : Parser γ α} {f : α → Bool} (h : Soft p) : Soft (verify p f) := by
  intro s
  unfold Parser.verify
  rcases h s with ⟨r, a, hp⟩ | ⟨e, hp⟩
  · rw [hp]; simp only; split
    · exact .inl ⟨_, _, rfl⟩
    · exact .inr ⟨_, rfl⟩
  · rw [hp]; exact .inr ⟨e, rfl⟩

theorem Soft.mapRes {p : Parser γ α} {f : α → Res ε β} (h : Soft p) (hf : ∀ a, f a ≠ .panic) : Soft (mapRes p f) := by
  intro s
  unfold Parser.mapRes
  rcases h s with ⟨r, a, hp⟩ | ⟨e, hp⟩
  · rw [hp]; simp only
    cases hfa : f a with
    | ok b => exact .inl ⟨_, _, rfl⟩
    | err e => exact .inr ⟨_, rfl⟩
    | panic => exact absurd hfa (hf a)
  · rw [hp]; exact .inr ⟨e, rfl⟩

theorem Soft.err {p : Parser γ α} (h : Soft p) {s : Str} (hn : ∀ r a, p s ≠ .ok r a) : ∃ e, p s = .error e := by
  rcases h s with ⟨r, a, hp⟩ | he
  · exact absurd hp (hn r a)
  · exact he

theorem alt_soft {p : Parser γ α} {ps : List (Parser γ α)} (h : Soft p) {s r : Str} {a : α} :
    alt (p :: ps) s = .ok r a ↔ p s = .ok r a ∨ (∀ r a, p s ≠ .ok r a) ∧ alt ps s = .ok r a := by
  rw [alt_cons_eq_ok]
  constructor
  · rintro (h' | ⟨⟨e, he⟩, h'⟩)
    · exact .inl h'
    · exact .inr ⟨fun r a h2 => by (rw [he] at h2; cases h2), h'⟩
  · rintro (h' | ⟨hn, h'⟩)
    · exact .inl h'
    · exact .inr ⟨h.err hn, h'⟩

theorem alt_mem {ps : List (Parser γ α)} {s r : Str} {a : α} (h : alt ps s = .ok r a) : ∃ p ∈ ps, p s = .ok r a := by
  induction ps with
  | nil => exact (alt_nil_eq_ok.1 h).elim
  | cons p ps ih =>
    rcases alt_cons_eq_ok.1 h with h | ⟨_, h⟩
    · exact ⟨p, by simp, h⟩
    · obtain ⟨q, hq, h⟩ := ih h; exact ⟨q, by simp [hq], h⟩

theorem tag_err {t s : Str} (h : t.isPrefixOf s = false) : ∃ e, (tag t : Parser γ Str) s = .error e := by
  unfold tag; rw [h]; exact ⟨_, rfl⟩

theorem comma_err {s : Str} (h : ∀ r, s ≠ ',' :: r) : ∃ e, (comma : Parser γ Str) s = .error e :=
  Soft.comma.err fun r _ hc => h r (comma_eq_ok.1 hc).1

end Parser

open Parser

theorem noC_head {p X r : Str} (hp : NoC ',' p) (h : p ++ X = ',' :: r) : p = [] ∧ X = ',' :: r := by
  cases p with
  | nil => exact ⟨rfl, h⟩
  | cons c p =>
    injection h with h1 h2
    subst h1
    have := hp.of_cons.1
    simp at this

/-- Splitting at the first comma is unique. -/
theorem noC_unique {p q X Y : Str} (hp : NoC ',' p) (hq : NoC ',' q) (hX : AtComma X) (hY : AtComma Y)
    (h : p ++ X = q ++ Y) : p = q ∧ X = Y := by
  induction p generalizing q with
  | nil =>
    cases q with
    | nil => exact ⟨rfl, h⟩
    | cons d q =>
      rcases hX with rfl | ⟨r, rfl⟩
      · cases h
      · injection h with h1 h2; subst h1; have := hq.of_cons.1; simp at this
  | cons c p ih =>
    cases q with
    | nil =>
      rcases hY with rfl | ⟨r, rfl⟩
      · cases h
      · injection h with h1 h2; subst h1; have := hp.of_cons.1; simp at this
    | cons d q =>
      injection h with h1 h2
      obtain ⟨rfl, rfl⟩ := ih hp.of_cons.2 hq.of_cons.2 h2
      rw [h1]; exact ⟨rfl, rfl⟩

theorem preC_eq_cons {qs : List Str} {r : Str} : preC ',' qs = ',' :: r ↔ ∃ q qs', qs = q :: qs' ∧ r = q ++ preC ',' qs' := by
  cases qs with
  | nil => simp [preC_nil]
  | cons q qs =>
    rw [preC_cons]
    constructor
    · intro h; injection h with _ h; exact ⟨q, qs, rfl, h.symm⟩
    · rintro ⟨_, _, h, rfl⟩; cases h; rfl

theorem preC_eq_nil {qs : List Str} : preC ',' qs = [] ↔ qs = [] := by
  cases qs with
  | nil => simp [preC_nil]
  | cons q qs => simp [preC_cons]

theorem preC_length {q : Str} {qs : List Str} : (preC ',' qs).length < (preC ',' (q :: qs)).length := by
  rw [preC_cons]; simp; omega

namespace SB
namespace Command
variable {D : Type} [DecLib D] {γ : Type}

/-- `preceded(comma(), comma_field_type())` on pieces. -/
theorem commaF_pieces {ε α : Type} {f : Str → Res ε α} {qs : List Str} (hqs : ∀ q ∈ qs, NoC ',' q) {r : Str} {a : α} :
    (preceded comma (commaFieldType f) : Parser γ α) (preC ',' qs) = .ok r a ↔
      ∃ q qs', qs = q :: qs' ∧ f q = .ok a ∧ r = preC ',' qs' := by
  simp only [preceded_eq_ok, comma_eq_ok]
  constructor
  · rintro ⟨r1, _, ⟨h1, rfl⟩, h2⟩
    obtain ⟨q, qs', rfl, rfl⟩ := preC_eq_cons.1 h1
    rw [commaFieldType_pieces (hqs q (by simp))] at h2
    exact ⟨q, qs', rfl, h2⟩
  · rintro ⟨q, qs', rfl, h⟩
    exact ⟨_, _, ⟨preC_cons _ _ _, rfl⟩, (commaFieldType_pieces (hqs q (by simp))).2 h⟩

theorem many0_one {ε α : Type} {f : Str → Res ε α} {qs : List Str} (hqs : ∀ q ∈ qs, NoC ',' q) {l : List α} :
    many0 (preceded comma (commaFieldType f) : Parser γ α) (preC ',' qs) = .ok [] l ↔ qs.map f = l.map .ok := by
  induction qs generalizing l with
  | nil =>
    rw [many0_nil (e := [([], .nom .tag)]) (by rfl)]
    constructor
    · intro h; injection h with _ h; subst h; rfl
    · intro h; cases l with
      | nil => rfl
      | cons a l => cases h
  | cons q qs ih =>
    rw [many0_iff]
    constructor
    · rintro (⟨e, _, h, _⟩ | ⟨r1, a, as', h, _, h', rfl⟩)
      · exact absurd (preC_eq_nil.1 h.symm) (by simp)
      · rw [commaF_pieces hqs] at h
        obtain ⟨q', qs', h0, hf, rfl⟩ := h
        cases h0
        rw [ih (fun q hq => hqs q (by simp [hq]))] at h'
        simp [hf, h']
    · intro h
      cases l with
      | nil => cases h
      | cons a l =>
        simp only [List.map_cons, List.cons.injEq] at h
        exact .inr ⟨_, a, l, (commaF_pieces hqs).2 ⟨q, qs, rfl, h.1, rfl⟩, preC_length,
          (ih fun q hq => hqs q (by simp [hq])).2 h.2, rfl⟩

theorem manyEnd {α : Type} {c : γ} {p : Parser γ (List α)} {s r : Str} {l : List α} :
    terminated p (context c eof) s = .ok r l ↔ r = [] ∧ p s = .ok [] l := by
  simp only [terminated_eq_ok, context_eq_ok, eof_eq_ok]
  constructor
  · rintro ⟨r1, x, h, rfl, rfl, _⟩; exact ⟨rfl, h⟩
  · rintro ⟨rfl, h⟩; exact ⟨[], [], h, rfl, rfl, rfl⟩

theorem decParse_ok {s : Str} {d : Decimal D} : (Decimal.parse s : Res Unit (Decimal D)) = .ok d ↔ d = Decimal.ofStr s := by
  unfold Decimal.parse
  constructor
  · intro h; injection h with h; exact h.symm
  · rintro rfl; rfl

theorem map_decParse {qs : List Str} {l : List (Decimal D)} :
    qs.map (Decimal.parse : Str → Res Unit (Decimal D)) = l.map .ok ↔ l = qs.map Decimal.ofStr := by
  induction qs generalizing l with
  | nil => cases l <;> simp
  | cons q qs ih =>
    cases l with
    | nil => simp
    | cons a l => simp only [List.map_cons, List.cons.injEq, decParse_ok, ih]

theorem decF {q : Str} {qs : List Str} (hq : NoC ',' q) :
    (commaFieldType Decimal.parse : Parser γ (Decimal D)) (q ++ preC ',' qs) = .ok (preC ',' qs) (Decimal.ofStr q) :=
  (commaFieldType_pieces hq).2 ⟨rfl, rfl⟩

theorem comma_preC {q : Str} {qs : List Str} :
    (comma : Parser γ Str) (preC ',' (q :: qs)) = .ok (q ++ preC ',' qs) [','] :=
  comma_eq_ok.2 ⟨preC_cons _ _ _, rfl⟩

theorem twoContinuing_eq : ∀ (qs : List Str), (∀ q ∈ qs, NoC ',' q) →
    (twoContinuingP : Parser CmdErr (List (Decimal D × Option (Decimal D)))) (preC ',' qs) =
      .ok [] (twoByTwo (qs.map Decimal.ofStr))
  | [], _ => many0_nil (e := [([], .nom .tag)]) (by rfl)
  | [a], h => by
    refine many0_cons (r := []) (a := (Decimal.ofStr a, none)) ?_ ?_ (many0_nil (e := [([], .nom .tag)]) (by rfl))
    · refine preceded_eq_ok.2 ⟨_, _, comma_preC, pair_eq_ok.2 ⟨_, decF (h a (by simp)), ?_⟩⟩
      exact alt_cons_ok (map_eq_ok.2 ⟨_, eof_eq_ok.2 ⟨rfl, rfl, rfl⟩, rfl⟩)
    · rw [preC_cons]; simp
  | a :: b :: qs, h => by
    have ih := twoContinuing_eq qs fun q hq => h q (by simp [hq])
    refine many0_cons (r := preC ',' qs) (a := (Decimal.ofStr a, some (Decimal.ofStr b))) ?_ ?_ ih
    · refine preceded_eq_ok.2 ⟨_, _, comma_preC, pair_eq_ok.2 ⟨_, decF (h a (by simp)), ?_⟩⟩
      refine (alt_soft Soft.eof.map).2 (.inr ⟨?_, alt_cons_ok ?_⟩)
      · intro r x hx
        obtain ⟨_, h1, _⟩ := map_eq_ok.1 hx
        have := (eof_eq_ok.1 h1).1
        rw [preC_cons] at this; cases this
      · rw [cut_eq_ok, map_eq_ok]
        exact ⟨_, preceded_eq_ok.2 ⟨_, _, comma_preC, decF (h b (by simp))⟩, rfl⟩
    · exact Nat.lt_trans preC_length preC_length

theorem contColour_pieces {qs : List Str} (hqs : ∀ q ∈ qs, NoC ',' q) {r : Str} {o : Option UInt8} :
    contColourP (preC ',' qs) = .ok r o ↔ (qs = [] ∧ r = [] ∧ o = none) ∨
      ∃ q qs' n, qs = q :: qs' ∧ parseU8 q = .ok n ∧ o = some n ∧ r = preC ',' qs' := by
  unfold contColourP
  rw [alt_soft Soft.eof.map]
  constructor
  · rintro (h | ⟨_, h⟩)
    · obtain ⟨_, h1, rfl⟩ := map_eq_ok.1 h
      obtain ⟨h2, rfl, _⟩ := eof_eq_ok.1 h1
      exact .inl ⟨preC_eq_nil.1 h2, rfl, rfl⟩
    · rcases alt_cons_eq_ok.1 h with h | ⟨_, h⟩
      · obtain ⟨n, h1, rfl⟩ := map_eq_ok.1 h
        obtain ⟨q, qs', rfl, hn, rfl⟩ := (commaF_pieces hqs).1 h1
        exact .inr ⟨q, qs', n, rfl, hn, rfl, rfl⟩
      · exact (alt_nil_eq_ok.1 h).elim
  · rintro (⟨rfl, rfl, rfl⟩ | ⟨q, qs', n, rfl, hn, rfl, rfl⟩)
    · exact .inl (map_eq_ok.2 ⟨_, eof_eq_ok.2 ⟨rfl, rfl, rfl⟩, rfl⟩)
    · refine .inr ⟨?_, alt_cons_ok (map_eq_ok.2 ⟨_, (commaF_pieces hqs).2 ⟨q, qs', rfl, hn, rfl⟩, rfl⟩)⟩
      intro r x hx
      obtain ⟨_, h1, _⟩ := map_eq_ok.1 hx
      have := (eof_eq_ok.1 h1).1
      rw [preC_cons] at this; cases this

/-- One group of the continuing colours on pieces. -/
theorem colourItem_pieces {qs : List Str} (hqs : ∀ q ∈ qs, NoC ',' q) {r : Str} {x : UInt8 × Option UInt8 × Option UInt8} :
    (preceded comma ((commaFieldType parseU8).bind fun r =>
      contColourP.bind fun g => contColourP.bind fun b => ret (r, g, b)) : Parser CmdErr _) (preC ',' qs) = .ok r x ↔
    (∃ a n, qs = [a] ∧ parseU8 a = .ok n ∧ x = (n, none, none) ∧ r = []) ∨
    (∃ a b n m, qs = [a, b] ∧ parseU8 a = .ok n ∧ parseU8 b = .ok m ∧ x = (n, some m, none) ∧ r = []) ∨
    (∃ a b c qs' n m k, qs = a :: b :: c :: qs' ∧ parseU8 a = .ok n ∧ parseU8 b = .ok m ∧ parseU8 c = .ok k ∧
      x = (n, some m, some k) ∧ r = preC ',' qs') := by
  simp only [preceded_eq_ok, comma_eq_ok, bind_eq_ok, ret_eq_ok]
  constructor
  · rintro ⟨r1, _, ⟨h1, _⟩, r2, n, h2, r3, g, h3, r4, b, h4, rfl, rfl⟩
    obtain ⟨a, qs1, rfl, rfl⟩ := preC_eq_cons.1 h1
    obtain ⟨hn, rfl⟩ := (commaFieldType_pieces (hqs a (by simp))).1 h2
    have hqs1 : ∀ q ∈ qs1, NoC ',' q := fun q hq => hqs q (by simp [hq])
    rcases (contColour_pieces hqs1).1 h3 with ⟨rfl, rfl, rfl⟩ | ⟨b', qs2, m, rfl, hm, rfl, rfl⟩
    · rcases (contColour_pieces (qs := []) (by simp)).1 h4 with ⟨_, rfl, rfl⟩ | ⟨_, _, _, h, _⟩
      · exact .inl ⟨a, n, rfl, hn, rfl, rfl⟩
      · cases h
    · rcases (contColour_pieces (fun q hq => hqs1 q (by simp [hq]))).1 h4 with
        ⟨rfl, rfl, rfl⟩ | ⟨c, qs3, k, rfl, hk, rfl, rfl⟩
      · exact .inr (.inl ⟨a, b', n, m, rfl, hn, hm, rfl, rfl⟩)
      · exact .inr (.inr ⟨a, b', c, qs3, n, m, k, rfl, hn, hm, hk, rfl, rfl⟩)
  · rintro (⟨a, n, rfl, hn, rfl, rfl⟩ | ⟨a, b, n, m, rfl, hn, hm, rfl, rfl⟩ |
      ⟨a, b, c, qs', n, m, k, rfl, hn, hm, hk, rfl, rfl⟩)
    · refine ⟨_, _, ⟨preC_cons _ _ _, rfl⟩, _, n, (commaFieldType_pieces (hqs a (by simp))).2 ⟨hn, rfl⟩, _, none,
        (contColour_pieces (by simp)).2 (.inl ⟨rfl, rfl, rfl⟩), _, none,
        (contColour_pieces (qs := []) (by simp)).2 (.inl ⟨rfl, rfl, rfl⟩), rfl, rfl⟩
    · refine ⟨_, _, ⟨preC_cons _ _ _, rfl⟩, _, n, (commaFieldType_pieces (hqs a (by simp))).2 ⟨hn, rfl⟩, _, some m,
        (contColour_pieces (fun q hq => hqs q (by simp at hq ⊢; simp [hq]))).2 (.inr ⟨b, [], m, rfl, hm, rfl, rfl⟩), _, none,
        (contColour_pieces (qs := []) (by simp)).2 (.inl ⟨rfl, rfl, rfl⟩), rfl, rfl⟩
    · refine ⟨_, _, ⟨preC_cons _ _ _, rfl⟩, _, n, (commaFieldType_pieces (hqs a (by simp))).2 ⟨hn, rfl⟩, _, some m,
        (contColour_pieces (fun q hq => hqs q (List.mem_cons_of_mem _ hq))).2 (.inr ⟨b, c :: qs', m, rfl, hm, rfl, rfl⟩), _, some k,
        (contColour_pieces (fun q hq => hqs q (List.mem_cons_of_mem _ (List.mem_cons_of_mem _ hq)))).2
          (.inr ⟨c, qs', k, rfl, hk, rfl, rfl⟩), rfl, rfl⟩

theorem contColours_pieces : ∀ (qs : List Str), (∀ q ∈ qs, NoC ',' q) → ∀ l,
    (contColoursP (preC ',' qs) = .ok [] l ↔ ∃ ns, qs.map parseU8 = ns.map .ok ∧ l = threeByThree ns)
  | [], _, l => by
    rw [show contColoursP (preC ',' []) = .ok [] [] from many0_nil (e := [([], .nom .tag)]) (by rfl)]
    constructor
    · intro h; injection h with _ h; exact ⟨[], rfl, h.symm⟩
    · rintro ⟨ns, h, rfl⟩
      cases ns with
      | nil => rfl
      | cons n ns => cases h
  | [a], h, l => by
    have e0 : contColoursP [] = .ok [] [] := many0_nil (e := [([], .nom .tag)]) (by rfl)
    constructor
    · intro hm
      rcases many0_iff.1 hm with ⟨e, _, h0, _⟩ | ⟨r1, x, as', h1, _, h2, rfl⟩
      · exact absurd (preC_eq_nil.1 h0.symm) (by simp)
      · rcases (colourItem_pieces h).1 h1 with ⟨_, n, h3, hn, rfl, rfl⟩ | ⟨_, _, _, _, h3, _⟩ | ⟨_, _, _, _, _, _, _, h3, _⟩
        · cases h3
          have : as' = [] := by
            have h2' : contColoursP [] = .ok [] as' := h2
            rw [e0] at h2'; injection h2' with _ h2'; exact h2'.symm
          subst this
          exact ⟨[n], by simp [hn], rfl⟩
        · cases h3
        · cases h3
    · rintro ⟨ns, hns, rfl⟩
      rcases ns with _ | ⟨n, _ | ⟨m, ns⟩⟩
      · simp at hns
      · simp only [List.map_cons, List.map_nil, List.cons.injEq, and_true] at hns
        exact many0_cons ((colourItem_pieces h).2 (.inl ⟨a, n, rfl, hns, rfl, rfl⟩)) (by rw [preC_cons]; simp) e0
      · simp at hns
  | [a, b], h, l => by
    have e0 : contColoursP [] = .ok [] [] := many0_nil (e := [([], .nom .tag)]) (by rfl)
    constructor
    · intro hm
      rcases many0_iff.1 hm with ⟨e, _, h0, _⟩ | ⟨r1, x, as', h1, _, h2, rfl⟩
      · exact absurd (preC_eq_nil.1 h0.symm) (by simp)
      · rcases (colourItem_pieces h).1 h1 with ⟨_, _, h3, _⟩ | ⟨_, _, n, m, h3, hn, hm', rfl, rfl⟩ | ⟨_, _, _, _, _, _, _, h3, _⟩
        · cases h3
        · cases h3
          have : as' = [] := by
            have h2' : contColoursP [] = .ok [] as' := h2
            rw [e0] at h2'; injection h2' with _ h2'; exact h2'.symm
          subst this
          exact ⟨[n, m], by simp [hn, hm'], rfl⟩
        · cases h3
    · rintro ⟨ns, hns, rfl⟩
      rcases ns with _ | ⟨n, _ | ⟨m, _ | ⟨k, ns⟩⟩⟩
      · simp at hns
      · simp at hns
      · simp only [List.map_cons, List.map_nil, List.cons.injEq, and_true] at hns
        exact many0_cons ((colourItem_pieces h).2 (.inr (.inl ⟨a, b, n, m, rfl, hns.1, hns.2, rfl, rfl⟩)))
          (by rw [preC_cons]; simp) e0
      · simp at hns
  | a :: b :: c :: qs, h, l => by
    have ih := contColours_pieces qs fun q hq => h q (by simp [hq])
    constructor
    · intro hm
      rcases many0_iff.1 hm with ⟨e, _, h0, _⟩ | ⟨r1, x, as', h1, _, h2, rfl⟩
      · exact absurd (preC_eq_nil.1 h0.symm) (by simp)
      · rcases (colourItem_pieces h).1 h1 with ⟨_, _, h3, _⟩ | ⟨_, _, _, _, h3, _⟩ |
          ⟨_, _, _, _, n, m, k, h3, hn, hm', hk, rfl, rfl⟩
        · cases h3
        · cases h3
        · cases h3
          obtain ⟨ns, h4, rfl⟩ := (ih as').1 h2
          exact ⟨n :: m :: k :: ns, by simp [hn, hm', hk, h4], rfl⟩
    · rintro ⟨ns, hns, rfl⟩
      rcases ns with _ | ⟨n, _ | ⟨m, _ | ⟨k, ns⟩⟩⟩
      · simp at hns
      · simp at hns
      · simp at hns
      · simp only [List.map_cons, List.cons.injEq] at hns
        exact many0_cons ((colourItem_pieces h).2 (.inr (.inr ⟨a, b, c, qs, n, m, k, rfl, hns.1, hns.2.1, hns.2.2.1, rfl, rfl⟩)))
          (Nat.lt_trans preC_length (Nat.lt_trans preC_length preC_length)) ((ih _).2 ⟨ns, hns.2.2.2, rfl⟩)

/-! ### Times -/

theorem parseI32_nil {n : Int32} : parseI32 [] ≠ .ok n := fun h => (parseI32_chars h).1 rfl

theorem numChar_notWs {c : Char} (h : isNumChar c = true) : isWs c = false := by
  unfold isNumChar digitVal at h
  simp only [Bool.or_eq_true] at h
  rcases h with (h | h) | h
  · split at h
    · simp [isWs]; omega
    · cases h
  · rw [beq_iff_eq] at h; subst h; decide
  · rw [beq_iff_eq] at h; subst h; decide

theorem blankField_iff {b : Str} : (trim b).isEmpty = true ↔ BlankField b := by
  rw [List.isEmpty_iff, trim_eq_nil]; rfl

theorem endTime_pieces {qs : List Str} (hqs : ∀ q ∈ qs, NoC ',' q) {r : Str} {o : Option Int32} :
    endTimeP (preC ',' qs) = .ok r o ↔ ∃ b qs', qs = b :: qs' ∧ r = preC ',' qs' ∧
      ((BlankField b ∧ o = none) ∨ ∃ e, parseI32 b = .ok e ∧ o = some e) := by
  unfold endTimeP
  simp only [preceded_eq_ok, context_eq_ok, cut_eq_ok, comma_eq_ok]
  constructor
  · rintro ⟨r1, _, ⟨h1, _⟩, h2⟩
    obtain ⟨b, qs', rfl, rfl⟩ := preC_eq_cons.1 h1
    rcases (alt_soft (Soft.verify Soft.commaField).map).1 h2 with h3 | ⟨_, h3⟩
    · obtain ⟨x, h4, rfl⟩ := map_eq_ok.1 h3
      rw [verify_eq_ok, commaField_pieces (hqs b (by simp))] at h4
      obtain ⟨h4, h5⟩ := h4
      cases h4
      exact ⟨_, qs', rfl, rfl, .inl ⟨blankField_iff.1 h5, rfl⟩⟩
    · rcases alt_cons_eq_ok.1 h3 with h3 | ⟨_, h3⟩
      · rw [cut_eq_ok] at h3
        obtain ⟨x, h4, rfl⟩ := map_eq_ok.1 h3
        rw [context_eq_ok, commaFieldType_pieces (hqs b (by simp))] at h4
        exact ⟨b, qs', rfl, h4.2, .inr ⟨x, h4.1, rfl⟩⟩
      · exact (alt_nil_eq_ok.1 h3).elim
  · rintro ⟨b, qs', rfl, rfl, h⟩
    refine ⟨_, _, ⟨preC_cons _ _ _, rfl⟩, ?_⟩
    rw [alt_soft (Soft.verify Soft.commaField).map]
    rcases h with ⟨hb, rfl⟩ | ⟨e, he, rfl⟩
    · exact .inl (map_eq_ok.2 ⟨b, verify_eq_ok.2 ⟨commaField_pieces (hqs b (by simp)), blankField_iff.2 hb⟩, rfl⟩)
    · refine .inr ⟨?_, alt_cons_ok ?_⟩
      · intro r x hx
        obtain ⟨_, h4, _⟩ := map_eq_ok.1 hx
        rw [verify_eq_ok, commaField_pieces (hqs b (by simp))] at h4
        obtain ⟨h4, h5⟩ := h4
        cases h4
        have hb := blankField_iff.1 h5
        obtain ⟨hn, hc⟩ := parseI32_chars he
        cases b with
        | nil => exact hn rfl
        | cons c b =>
          have h1 := hb c (by simp)
          have h2 := hc.of_cons.1
          rw [numChar_notWs h2] at h1; cases h1
      · rw [cut_eq_ok, map_eq_ok]
        exact ⟨e, by rw [context_eq_ok, commaFieldType_pieces (hqs b (by simp))]; exact ⟨he, rfl⟩, rfl⟩

theorem startTime_pieces {qs : List Str} (hqs : ∀ q ∈ qs, NoC ',' q) {r : Str} {o : Option Int32} :
    startTimeP (preC ',' qs) = .ok r o ↔ ∃ a qs' t, qs = a :: qs' ∧ r = preC ',' qs' ∧ parseI32 a = .ok t ∧ o = some t := by
  unfold startTimeP
  rw [comma_pieces]
  constructor
  · rintro ⟨a, qs', rfl, h⟩
    rw [context_eq_ok] at h
    obtain ⟨t, h1, rfl⟩ := map_eq_ok.1 h
    rw [commaFieldType_pieces (hqs a (by simp))] at h1
    exact ⟨a, qs', t, rfl, h1.2, h1.1, rfl⟩
  · rintro ⟨a, qs', t, rfl, rfl, ht, rfl⟩
    refine ⟨a, qs', rfl, ?_⟩
    rw [context_eq_ok]
    exact map_eq_ok.2 ⟨t, (commaFieldType_pieces (hqs a (by simp))).2 ⟨ht, rfl⟩, rfl⟩

theorem peekComma_pieces {q : Str} {qs : List Str} (hq : NoC ',' q) {r a : Str} :
    (peek comma : Parser γ Str) (q ++ preC ',' qs) = .ok r a ↔ q = [] ∧ qs ≠ [] ∧ r = preC ',' qs ∧ a = [','] := by
  rw [peek_eq_ok]
  simp only [comma_eq_ok]
  constructor
  · rintro ⟨rfl, r1, h, rfl⟩
    obtain ⟨rfl, h⟩ := noC_head hq h
    refine ⟨rfl, ?_, rfl, rfl⟩
    rintro rfl; cases h
  · rintro ⟨rfl, h, rfl, rfl⟩
    cases qs with
    | nil => exact absurd rfl h
    | cons q qs => exact ⟨rfl, _, preC_cons _ _ _, rfl⟩

theorem softSkip : Soft ((pair (tag c!",,") (peek comma)).map fun _ => ((none, none) : Option Int32 × Option Int32) : Parser CmdErr _) :=
  ((Soft.tag _).pair Soft.comma.peek).map

theorem skip_pieces {qs : List Str} (hqs : ∀ q ∈ qs, NoC ',' q) {r : Str} {x : Option Int32 × Option Int32} :
    ((pair (tag c!",,") (peek comma)).map fun _ => ((none, none) : Option Int32 × Option Int32) : Parser CmdErr _)
      (preC ',' qs) = .ok r x ↔ ∃ q qs', qs = [] :: [] :: q :: qs' ∧ r = preC ',' (q :: qs') ∧ x = (none, none) := by
  rw [map_eq_ok]
  simp only [pair_eq_ok]
  constructor
  · rintro ⟨y, ⟨r1, h1, h2⟩, rfl⟩
    obtain ⟨h1, _⟩ := tag_eq_ok.1 h1
    obtain ⟨a, qs1, rfl, h3⟩ := preC_eq_cons.1 h1
    obtain ⟨rfl, h4⟩ := noC_head (hqs a (by simp)) h3.symm
    obtain ⟨b, qs2, rfl, rfl⟩ := preC_eq_cons.1 h4
    obtain ⟨rfl, hne, rfl, _⟩ := (peekComma_pieces (hqs b (by simp))).1 h2
    cases qs2 with
    | nil => exact absurd rfl hne
    | cons q qs => exact ⟨q, qs, rfl, rfl, rfl⟩
  · rintro ⟨q, qs', rfl, rfl, rfl⟩
    refine ⟨(c!",,", [',']), ⟨_, tag_eq_ok.2 ⟨?_, rfl⟩, (peekComma_pieces (q := []) .nil).2 ⟨rfl, by simp, rfl, rfl⟩⟩, rfl⟩
    rw [preC_cons, preC_cons]; rfl

theorem times_pieces {qs : List Str} (hqs : ∀ q ∈ qs, NoC ',' q) {r : Str} {x : Easing × Option Int32 × Option Int32} :
    timesP (preC ',' qs) = .ok r x ↔ ∃ e a b qs' n, qs = e :: a :: b :: qs' ∧ parseI32 e = .ok n ∧ x.1 = Easing.ofInt n ∧
      TimesRead a b x.2.1 x.2.2 ∧ (x.2.1 = none → qs' ≠ []) ∧ r = preC ',' qs' := by
  unfold timesP
  rw [pair_eq_ok]
  unfold easingP
  simp only [cut_eq_ok]
  constructor
  · rintro ⟨r1, h1, h2⟩
    rw [comma_pieces] at h1
    obtain ⟨e, qs1, rfl, h1⟩ := h1
    rw [context_eq_ok] at h1
    obtain ⟨n, h1, h1'⟩ := mapOpt_eq_ok.1 h1
    rw [commaFieldType_pieces (hqs e (by simp))] at h1
    obtain ⟨hn, rfl⟩ := h1
    injection h1' with h1'
    have hqs1 : ∀ q ∈ qs1, NoC ',' q := fun q hq => hqs q (List.mem_cons_of_mem _ hq)
    rcases (alt_soft softSkip).1 h2 with h3 | ⟨_, h3⟩
    · obtain ⟨q, qs', rfl, rfl, h4⟩ := (skip_pieces hqs1).1 h3
      rw [h4]
      exact ⟨e, [], [], _, n, rfl, hn, h1'.symm, .none, by simp, rfl⟩
    · rcases alt_cons_eq_ok.1 h3 with h3 | ⟨_, h3⟩
      · obtain ⟨r2, h4, h5⟩ := pair_eq_ok.1 h3
        obtain ⟨a, qs2, t, rfl, rfl, ha, h6⟩ := (startTime_pieces hqs1).1 h4
        obtain ⟨b, qs3, rfl, rfl, h7⟩ := (endTime_pieces fun q hq => hqs1 q (List.mem_cons_of_mem _ hq)).1 h5
        rw [h6]
        refine ⟨e, a, b, qs3, n, rfl, hn, h1'.symm, ?_, by simp, rfl⟩
        rcases h7 with ⟨hb, h7⟩ | ⟨et, hb, h7⟩
        · rw [h7]; exact .start ha hb
        · rw [h7]; exact .both ha hb
      · exact (alt_nil_eq_ok.1 h3).elim
  · rintro ⟨e, a, b, qs', n, rfl, hn, h1, ht, hne, rfl⟩
    obtain ⟨ea, st, et⟩ := x
    simp only at h1 ht hne ⊢
    have hqs1 : ∀ q ∈ a :: b :: qs', NoC ',' q := fun q hq => hqs q (List.mem_cons_of_mem _ hq)
    refine ⟨preC ',' (a :: b :: qs'), ?_, ?_⟩
    · rw [comma_pieces]
      refine ⟨e, _, rfl, ?_⟩
      rw [context_eq_ok]
      exact mapOpt_eq_ok.2 ⟨n, (commaFieldType_pieces (hqs e (by simp))).2 ⟨hn, rfl⟩, by rw [h1]⟩
    · rw [alt_soft softSkip]
      have key : ∀ t et', parseI32 a = .ok t → ((BlankField b ∧ et' = none) ∨ ∃ e, parseI32 b = .ok e ∧ et' = some e) →
          (∀ r x, ((pair (tag c!",,") (peek comma)).map fun _ => ((none, none) : Option Int32 × Option Int32) :
            Parser CmdErr _) (preC ',' (a :: b :: qs')) ≠ .ok r x) ∧
          alt [pair startTimeP endTimeP] (preC ',' (a :: b :: qs')) = .ok (preC ',' qs') (some t, et') := by
        intro t et' ha hb
        constructor
        · intro r x hx
          obtain ⟨_, _, h, _⟩ := (skip_pieces hqs1).1 hx
          injection h with h _
          rw [h] at ha
          exact parseI32_nil ha
        · refine alt_cons_ok (pair_eq_ok.2 ⟨_, (startTime_pieces hqs1).2 ⟨a, _, t, rfl, rfl, ha, rfl⟩, ?_⟩)
          exact (endTime_pieces fun q hq => hqs1 q (List.mem_cons_of_mem _ hq)).2 ⟨b, qs', rfl, rfl, hb⟩
      cases ht with
      | none =>
        cases qs' with
        | nil => exact absurd rfl (hne rfl)
        | cons q qs' => exact .inl ((skip_pieces hqs1).2 ⟨q, qs', rfl, rfl, rfl⟩)
      | start ha hb => exact .inr (key _ _ ha (.inl ⟨hb, rfl⟩))
      | both ha hb => exact .inr (key _ _ ha (.inr ⟨_, hb, rfl⟩))

end Command
end SB
end Osu
