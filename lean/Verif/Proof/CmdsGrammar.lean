/-
Command lines: the parser accepts exactly the grammar of Spec/Cmds (whole lines).
-/
import Verif.Proof.Cmds

namespace Osu
open Parser
namespace SB
namespace Command
variable {D : Type} [DecLib D] {γ : Type}

theorem decThen_pieces {c1 c2 : γ} {qs : List Str} (hqs : ∀ q ∈ qs, NoC ',' q) {r : Str} {d : Decimal D} :
    preceded (context c1 comma) (context c2 (commaFieldType Decimal.parse)) (preC ',' qs) = .ok r d ↔
      ∃ q qs', qs = q :: qs' ∧ d = Decimal.ofStr q ∧ r = preC ',' qs' := by
  rw [commaThen_pieces hqs]; simp only [decParse_ok]

/-- The common part of the commands with an easing. -/
def EaseReads (qs : List Str) (x : Easing × Option Int32 × Option Int32) (qs' : List Str) : Prop :=
  ∃ e a b n, qs = e :: a :: b :: qs' ∧ parseI32 e = .ok n ∧ x.1 = Easing.ofInt n ∧ TimesRead a b x.2.1 x.2.2

theorem EaseReads.noC {qs qs' : List Str} {x : Easing × Option Int32 × Option Int32} (h : EaseReads qs x qs')
    (hqs : ∀ q ∈ qs, NoC ',' q) : ∀ q ∈ qs', NoC ',' q := by
  obtain ⟨e, a, b, n, rfl, _⟩ := h
  intro q hq
  exact hqs q (by simp [hq])

theorem times_then {qs : List Str} (hqs : ∀ q ∈ qs, NoC ',' q) {α : Type} {k : Easing × Option Int32 × Option Int32 → Parser CmdErr α}
    {r : Str} {y : α} (hk : ∀ x, k x [] ≠ .ok r y) :
    (timesP.bind k) (preC ',' qs) = .ok r y ↔ ∃ x qs', EaseReads qs x qs' ∧ k x (preC ',' qs') = .ok r y := by
  rw [bind_eq_ok]
  constructor
  · rintro ⟨r1, x, h1, h2⟩
    obtain ⟨e, a, b, qs', n, rfl, hn, hx, ht, _, rfl⟩ := (times_pieces hqs).1 h1
    exact ⟨x, qs', ⟨e, a, b, n, rfl, hn, hx, ht⟩, h2⟩
  · rintro ⟨x, qs', ⟨e, a, b, n, rfl, hn, hx, ht⟩, h2⟩
    refine ⟨preC ',' qs', x, (times_pieces hqs).2 ⟨e, a, b, qs', n, rfl, hn, hx, ht, ?_, rfl⟩, h2⟩
    rintro _ rfl
    exact hk x h2

theorem thenComma_nil {α : Type} {c1 : CmdErr} {p : Parser CmdErr α} {β : Type} {k : α → Parser CmdErr β} {r : Str} {y : β} :
    ((preceded (context c1 comma) p).bind k) [] ≠ .ok r y := by
  intro h
  obtain ⟨_, _, h1, _⟩ := bind_eq_ok.1 h
  obtain ⟨_, _, h1, _⟩ := preceded_eq_ok.1 h1
  rw [context_eq_ok] at h1
  exact absurd (comma_eq_ok.1 h1).1 (by simp)

theorem twoBody_pieces {e1 e2 e3 e4 e5 : CmdErr} {qs : List Str} (hqs : ∀ q ∈ qs, NoC ',' q) {r : Str}
    {t : Easing × Option Int32 × Option Int32} {c : ContinuingFields (Decimal D)} :
    twoBodyP e1 e2 e3 e4 e5 (preC ',' qs) = .ok r (t, c) ↔ r = [] ∧ ∃ x y xs, EaseReads qs t (x :: y :: xs) ∧
      c = ⟨(Decimal.ofStr x, Decimal.ofStr y), twoByTwo (xs.map Decimal.ofStr)⟩ := by
  unfold twoBodyP
  rw [cut_eq_ok, times_then hqs fun x => thenComma_nil]
  simp only [bind_eq_ok, ret_eq_ok, manyEnd]
  constructor
  · rintro ⟨t', qs', ht, r1, d1, h1, r2, d2, h2, r3, l, ⟨rfl, h3⟩, rfl, h4⟩
    have hqs' := ht.noC hqs
    injection h4 with h4 h5
    subst h4 h5
    obtain ⟨x, qs1, rfl, rfl, rfl⟩ := (decThen_pieces hqs').1 h1
    have hqs1 : ∀ q ∈ qs1, NoC ',' q := fun q hq => hqs' q (by simp [hq])
    obtain ⟨y, xs, rfl, rfl, rfl⟩ := (decThen_pieces hqs1).1 h2
    rw [twoContinuing_eq _ fun q hq => hqs1 q (by simp [hq])] at h3
    cases h3
    exact ⟨rfl, x, y, xs, ht, rfl⟩
  · rintro ⟨rfl, x, y, xs, ht, rfl⟩
    have hqs' := ht.noC hqs
    have hqs1 : ∀ q ∈ y :: xs, NoC ',' q := fun q hq => hqs' q (List.mem_cons_of_mem _ hq)
    exact ⟨t, _, ht, _, _, (decThen_pieces hqs').2 ⟨x, _, rfl, rfl, rfl⟩, _, _,
      (decThen_pieces hqs1).2 ⟨y, _, rfl, rfl, rfl⟩, [], _,
      ⟨rfl, twoContinuing_eq _ fun q hq => hqs1 q (by simp [hq])⟩, rfl, rfl⟩

/-- A header followed by something that begins with a comma. -/
theorem header_pieces {α : Type} {h : Str} {k : Parser γ α} {p : Str} {qs : List Str} (hp : NoC ',' p) (hh : NoC ',' h)
    (hk : ∀ s r a, k s = .ok r a → AtComma s) {r : Str} {a : α} :
    preceded (tag h) k (p ++ preC ',' qs) = .ok r a ↔ p = h ∧ k (preC ',' qs) = .ok r a := by
  rw [preceded_eq_ok]
  constructor
  · rintro ⟨r1, _, h1, h2⟩
    obtain ⟨h1, _⟩ := tag_eq_ok.1 h1
    obtain ⟨rfl, rfl⟩ := noC_unique hp hh (atComma_preC qs) (hk _ _ _ h2) h1
    exact ⟨rfl, h2⟩
  · rintro ⟨rfl, h2⟩
    exact ⟨_, _, tag_eq_ok.2 ⟨rfl, rfl⟩, h2⟩

theorem timesBind_atComma {α : Type} {k : Easing × Option Int32 × Option Int32 → Parser CmdErr α} {s r : Str} {a : α}
    (h : (cut (timesP.bind k)) s = .ok r a) : AtComma s := by
  rw [cut_eq_ok, bind_eq_ok] at h
  obtain ⟨_, _, h, _⟩ := h
  unfold timesP easingP at h
  obtain ⟨_, h, _⟩ := pair_eq_ok.1 h
  rw [cut_eq_ok, preceded_eq_ok] at h
  obtain ⟨_, _, h, _⟩ := h
  rw [context_eq_ok] at h
  exact .inr ⟨_, (comma_eq_ok.1 h).1⟩

theorem oneField_pieces {h : Str} {e1 e2 e3 : CmdErr} {p : Str} {qs : List Str} (hp : NoC ',' p) (hh : NoC ',' h)
    (hqs : ∀ q ∈ qs, NoC ',' q) {r : Str} {t : Easing × Option Int32 × Option Int32} {d : Decimal D} {ds : List (Decimal D)} :
    oneFieldP h e1 e2 e3 (p ++ preC ',' qs) = .ok r (t, d, ds) ↔ p = h ∧ r = [] ∧ ∃ x xs, EaseReads qs t (x :: xs) ∧
      d = Decimal.ofStr x ∧ ds = xs.map Decimal.ofStr := by
  unfold oneFieldP
  rw [header_pieces hp hh fun _ _ _ => timesBind_atComma, cut_eq_ok, times_then hqs fun x => thenComma_nil]
  simp only [bind_eq_ok, ret_eq_ok, manyEnd]
  constructor
  · rintro ⟨rfl, t', qs', ht, r1, d1, h1, r2, l, ⟨rfl, h3⟩, rfl, h4⟩
    have hqs' := ht.noC hqs
    injection h4 with h4 h5
    injection h5 with h5 h6
    subst h4 h5 h6
    obtain ⟨x, xs, rfl, rfl, rfl⟩ := (decThen_pieces hqs').1 h1
    rw [many0_one fun q hq => hqs' q (List.mem_cons_of_mem _ hq), map_decParse] at h3
    exact ⟨rfl, rfl, x, xs, ht, rfl, h3⟩
  · rintro ⟨rfl, rfl, x, xs, ht, rfl, rfl⟩
    have hqs' := ht.noC hqs
    refine ⟨rfl, t, _, ht, _, _, (decThen_pieces hqs').2 ⟨x, _, rfl, rfl, rfl⟩, [], _, ⟨rfl, ?_⟩, rfl, rfl⟩
    rw [many0_one fun q hq => hqs' q (List.mem_cons_of_mem _ hq), map_decParse]

omit [DecLib D] in
theorem colour_pieces {p : Str} {qs : List Str} (hp : NoC ',' p) (hqs : ∀ q ∈ qs, NoC ',' q) {r : Str} {c : Command D} :
    colourP (p ++ preC ',' qs) = .ok r c ↔ p = c!"C" ∧ r = [] ∧ ∃ t x y z xs n m k l, EaseReads qs t (x :: y :: z :: xs) ∧
      parseU8 x = .ok n ∧ parseU8 y = .ok m ∧ parseU8 z = .ok k ∧ xs.map parseU8 = l.map .ok ∧
      c = mk t.2.1 (.colour t.1 t.2.2 ⟨(n, m, k), threeByThree l⟩) := by
  unfold colourP
  rw [map_eq_ok]
  simp only [header_pieces hp (show NoC ',' c!"C" by intro c hc; simp at hc; subst hc; rfl) fun _ _ _ => timesBind_atComma,
    cut_eq_ok]
  simp only [times_then hqs fun x => thenComma_nil]
  simp only [bind_eq_ok, ret_eq_ok, manyEnd]
  constructor
  · rintro ⟨y, ⟨rfl, t', qs', ht, r1, n, h1, r2, m, h2, r3, k, h3, r4, l, ⟨rfl, h4⟩, rfl, rfl⟩, rfl⟩
    have hqs' := ht.noC hqs
    obtain ⟨x, qs1, rfl, hn, rfl⟩ := (commaThen_pieces hqs').1 h1
    have hqs1 : ∀ q ∈ qs1, NoC ',' q := fun q hq => hqs' q (List.mem_cons_of_mem _ hq)
    obtain ⟨y, qs2, rfl, hm, rfl⟩ := (commaThen_pieces hqs1).1 h2
    have hqs2 : ∀ q ∈ qs2, NoC ',' q := fun q hq => hqs1 q (List.mem_cons_of_mem _ hq)
    obtain ⟨z, xs, rfl, hk, rfl⟩ := (commaThen_pieces hqs2).1 h3
    obtain ⟨l, hl, rfl⟩ := (contColours_pieces _ (fun q hq => hqs2 q (List.mem_cons_of_mem _ hq)) _).1 h4
    exact ⟨rfl, rfl, t', x, y, z, xs, n, m, k, l, ht, hn, hm, hk, hl, rfl⟩
  · rintro ⟨rfl, rfl, t, x, y, z, xs, n, m, k, l, ht, hn, hm, hk, hl, rfl⟩
    have hqs' := ht.noC hqs
    have hqs1 : ∀ q ∈ y :: z :: xs, NoC ',' q := fun q hq => hqs' q (List.mem_cons_of_mem _ hq)
    have hqs2 : ∀ q ∈ z :: xs, NoC ',' q := fun q hq => hqs1 q (List.mem_cons_of_mem _ hq)
    exact ⟨_, ⟨rfl, t, _, ht, _, n, (commaThen_pieces hqs').2 ⟨x, _, rfl, hn, rfl⟩, _, m,
      (commaThen_pieces hqs1).2 ⟨y, _, rfl, hm, rfl⟩, _, k, (commaThen_pieces hqs2).2 ⟨z, _, rfl, hk, rfl⟩, [], _,
      ⟨rfl, (contColours_pieces _ (fun q hq => hqs2 q (List.mem_cons_of_mem _ hq)) _).2 ⟨l, hl, rfl⟩⟩, rfl, rfl⟩, rfl⟩

omit [DecLib D] in
theorem parameter_pieces {p : Str} {qs : List Str} (hp : NoC ',' p) (hqs : ∀ q ∈ qs, NoC ',' q) {r : Str} {c : Command D} :
    parameterP (p ++ preC ',' qs) = .ok r c ↔ p = c!"P" ∧ r = [] ∧ ∃ t x xs a l, EaseReads qs t (x :: xs) ∧
      Parameter.parse x = .ok a ∧ xs.map Parameter.parse = l.map .ok ∧ c = mk t.2.1 (.parameter t.1 t.2.2 a l) := by
  unfold parameterP
  rw [map_eq_ok]
  simp only [header_pieces hp (show NoC ',' c!"P" by intro c hc; simp at hc; subst hc; rfl) fun _ _ _ => timesBind_atComma,
    cut_eq_ok]
  simp only [times_then hqs fun x => thenComma_nil]
  simp only [bind_eq_ok, ret_eq_ok, manyEnd]
  constructor
  · rintro ⟨y, ⟨rfl, t', qs', ht, r1, a, h1, r4, l, ⟨rfl, h4⟩, rfl, rfl⟩, rfl⟩
    have hqs' := ht.noC hqs
    obtain ⟨x, qs1, rfl, hn, rfl⟩ := (commaThen_pieces hqs').1 h1
    rw [many0_one fun q hq => hqs' q (List.mem_cons_of_mem _ hq)] at h4
    exact ⟨rfl, rfl, t', x, qs1, a, l, ht, hn, h4, rfl⟩
  · rintro ⟨rfl, rfl, t, x, xs, a, l, ht, hn, hl, rfl⟩
    have hqs' := ht.noC hqs
    refine ⟨_, ⟨rfl, t, _, ht, _, a, (commaThen_pieces hqs').2 ⟨x, _, rfl, hn, rfl⟩, [], l, ⟨rfl, ?_⟩, rfl, rfl⟩, rfl⟩
    rw [many0_one fun q hq => hqs' q (List.mem_cons_of_mem _ hq)]
    exact hl

/-! ### Loops and triggers -/

theorem commaPeek_pieces {β : Type} {b : β} {qs : List Str} (hqs : ∀ q ∈ qs, NoC ',' q) {r : Str} {x : β} :
    ((pair comma (peek comma)).map fun _ => b : Parser γ β) (preC ',' qs) = .ok r x ↔
      ∃ q qs', qs = [] :: q :: qs' ∧ r = preC ',' (q :: qs') ∧ x = b := by
  rw [map_eq_ok]
  simp only [pair_eq_ok]
  constructor
  · rintro ⟨y, ⟨r1, h1, h2⟩, rfl⟩
    obtain ⟨h1, _⟩ := comma_eq_ok.1 h1
    obtain ⟨a, qs1, rfl, rfl⟩ := preC_eq_cons.1 h1
    obtain ⟨rfl, hne, rfl, _⟩ := (peekComma_pieces (hqs a (by simp))).1 h2
    cases qs1 with
    | nil => exact absurd rfl hne
    | cons q qs => exact ⟨q, qs, rfl, rfl, rfl⟩
  · rintro ⟨q, qs', rfl, rfl, rfl⟩
    refine ⟨([','], [',']), ⟨_, comma_preC, (peekComma_pieces (q := []) .nil).2 ⟨rfl, by simp, rfl, rfl⟩⟩, rfl⟩

theorem softCommaPeek {β : Type} {b : β} : Soft ((pair comma (peek comma)).map fun _ => b : Parser γ β) :=
  (Soft.comma.pair Soft.comma.peek).map

theorem rest_num {ε α : Type} {f : Str → Res ε α} (hf : ∀ s a, f s = .ok a → AllC isNumChar s) {q : Str} {qs : List Str}
    {r : Str} {a : α} : (mapRes rest f : Parser γ α) (q ++ preC ',' qs) = .ok r a ↔ qs = [] ∧ r = [] ∧ f q = .ok a := by
  rw [mapRes_eq_ok]
  simp only [rest_eq_ok]
  constructor
  · rintro ⟨_, ⟨rfl, rfl⟩, h⟩
    cases qs with
    | nil => rw [preC_nil, List.append_nil] at h; exact ⟨rfl, rfl, h⟩
    | cons q' qs =>
      have := hf _ _ h ',' (by rw [preC_cons]; simp)
      exact absurd this (by decide)
  · rintro ⟨rfl, rfl, h⟩
    exact ⟨_, ⟨rfl, rfl⟩, by rw [preC_nil, List.append_nil]; exact h⟩

theorem u32_num (s : Str) (a : UInt32) (h : parseU32 s = .ok a) : AllC isNumChar s := (parseU32_chars h).2
theorem i32_num (s : Str) (a : Int32) (h : parseI32 s = .ok a) : AllC isNumChar s := (parseI32_chars h).2

theorem loopTail_pieces {qs : List Str} {r : Str} {n : UInt32} :
    (preceded (context .missingLoopCount comma) (context .invalidLoopCount (mapRes rest parseU32)) : Parser CmdErr UInt32)
      (preC ',' qs) = .ok r n ↔ ∃ b, qs = [b] ∧ r = [] ∧ parseU32 b = .ok n := by
  rw [comma_pieces]
  simp only [context_eq_ok, rest_num u32_num]
  constructor
  · rintro ⟨q, _, rfl, rfl, rfl, h⟩; exact ⟨q, rfl, rfl, h⟩
  · rintro ⟨b, rfl, rfl, h⟩; exact ⟨b, [], rfl, rfl, rfl, h⟩

omit [DecLib D] in
theorem loop_pieces {p : Str} {qs : List Str} (hp : NoC ',' p) (hqs : ∀ q ∈ qs, NoC ',' q) {r : Str} {c : Command D} :
    loopP (p ++ preC ',' qs) = .ok r c ↔ p = c!"L" ∧ r = [] ∧ ∃ a b st n, qs = [a, b] ∧ StartRead a st ∧
      parseU32 b = .ok n ∧ c = mk st (.loop n []) := by
  unfold loopP
  rw [map_eq_ok]
  have hat : ∀ (s r : Str) (a : Option Int32 × UInt32), (cut (pair
      (alt [(pair comma (peek comma)).map fun _ => none, startTimeP])
      (preceded (context .missingLoopCount comma) (context .invalidLoopCount (mapRes rest parseU32)))) :
        Parser CmdErr _) s = .ok r a → AtComma s := by
    intro s r a h
    rw [cut_eq_ok] at h
    obtain ⟨_, h, _⟩ := pair_eq_ok.1 h
    obtain ⟨q, hq, h⟩ := alt_mem h
    simp only [List.mem_cons, List.not_mem_nil, or_false] at hq
    rcases hq with rfl | rfl
    · obtain ⟨_, h, _⟩ := map_eq_ok.1 h
      obtain ⟨_, h, _⟩ := pair_eq_ok.1 h
      exact .inr ⟨_, (comma_eq_ok.1 h).1⟩
    · obtain ⟨_, _, h, _⟩ := preceded_eq_ok.1 h
      rw [context_eq_ok] at h
      exact .inr ⟨_, (comma_eq_ok.1 h).1⟩
  simp only [header_pieces hp (show NoC ',' c!"L" by intro c hc; simp at hc; subst hc; rfl) hat, cut_eq_ok, pair_eq_ok]
  constructor
  · rintro ⟨y, ⟨rfl, r1, h1, h2⟩, rfl⟩
    rcases (alt_soft softCommaPeek).1 h1 with h3 | ⟨_, h3⟩
    · obtain ⟨q, qs', rfl, rfl, h4⟩ := (commaPeek_pieces hqs).1 h3
      obtain ⟨b, h5, rfl, hb⟩ := loopTail_pieces.1 h2
      cases h5
      exact ⟨rfl, rfl, [], q, none, y.2, rfl, .none, hb, by rw [h4]⟩
    · rcases alt_cons_eq_ok.1 h3 with h3 | ⟨_, h3⟩
      · obtain ⟨a, qs', t, rfl, rfl, ha, h4⟩ := (startTime_pieces hqs).1 h3
        obtain ⟨b, rfl, rfl, hb⟩ := loopTail_pieces.1 h2
        exact ⟨rfl, rfl, a, b, some t, y.2, rfl, .some ha, hb, by rw [h4]⟩
      · exact (alt_nil_eq_ok.1 h3).elim
  · rintro ⟨rfl, rfl, a, b, st, n, rfl, ha, hb, rfl⟩
    refine ⟨(st, n), ⟨rfl, preC ',' [b], ?_, loopTail_pieces.2 ⟨b, rfl, rfl, hb⟩⟩, rfl⟩
    rw [alt_soft softCommaPeek]
    cases ha with
    | none => exact .inl ((commaPeek_pieces hqs).2 ⟨b, [], rfl, rfl, rfl⟩)
    | some ha =>
      refine .inr ⟨?_, alt_cons_ok ((startTime_pieces hqs).2 ⟨a, _, _, rfl, rfl, ha, rfl⟩)⟩
      intro r x hx
      obtain ⟨_, _, h, _⟩ := (commaPeek_pieces hqs).1 hx
      injection h with h _
      rw [h] at ha
      exact parseI32_nil ha

theorem blank_preC {qs : List Str} : (trim (preC ',' qs)).isEmpty = true ↔ qs = [] := by
  rw [blankField_iff]
  constructor
  · intro h
    cases qs with
    | nil => rfl
    | cons q qs => exact absurd (h ',' (by rw [preC_cons]; simp)) (by decide)
  · rintro rfl; intro c hc; cases hc

theorem softBlank {β : Type} {b : β} {f : Str → Bool} : Soft ((verify rest f).map fun _ => b : Parser γ β) :=
  (Soft.verify Soft.rest).map

theorem verifyRest {β : Type} {b : β} {f : Str → Bool} {s r : Str} {x : β} :
    ((verify rest f).map fun _ => b : Parser γ β) s = .ok r x ↔ f s = true ∧ r = [] ∧ x = b := by
  rw [map_eq_ok]
  simp only [verify_eq_ok, rest_eq_ok]
  constructor
  · rintro ⟨_, ⟨⟨rfl, rfl⟩, h⟩, rfl⟩; exact ⟨h, rfl, rfl⟩
  · rintro ⟨h, rfl, rfl⟩; exact ⟨s, ⟨⟨rfl, rfl⟩, h⟩, rfl⟩

theorem commaRest {c : γ} {qs : List Str} {r : Str} {n : Int32} :
    (preceded comma (context c (cut (restType parseI32))) : Parser γ Int32) (preC ',' qs) = .ok r n ↔
      ∃ b, qs = [b] ∧ r = [] ∧ parseI32 b = .ok n := by
  simp only [preceded_eq_ok, comma_eq_ok, context_eq_ok, cut_eq_ok]
  unfold restType
  constructor
  · rintro ⟨r1, _, ⟨h1, _⟩, h2⟩
    obtain ⟨q, qs', rfl, rfl⟩ := preC_eq_cons.1 h1
    obtain ⟨rfl, rfl, h⟩ := (rest_num i32_num).1 h2
    exact ⟨q, rfl, rfl, h⟩
  · rintro ⟨b, rfl, rfl, h⟩
    exact ⟨_, _, ⟨preC_cons _ _ _, rfl⟩, (rest_num i32_num).2 ⟨rfl, rfl, h⟩⟩

theorem i32_noPanic (s : Str) : parseI32 s ≠ .panic := by
  exact parseI32_no_panic s

theorem triggerTail_pieces {qs : List Str} (hqs : ∀ q ∈ qs, NoC ',' q) {r : Str} {x : Option Int32 × Option Int32} :
    triggerTailP (preC ',' qs) = .ok r x ↔ r = [] ∧ TriggerTail qs x.1 x.2 := by
  have softA : Soft (preceded comma (commaFieldType parseI32) : Parser CmdErr Int32) :=
    Soft.comma.preceded (Soft.commaField.mapRes i32_noPanic)
  unfold triggerTailP
  constructor
  · intro h
    obtain ⟨p, hp, h⟩ := alt_mem h
    simp only [List.mem_cons, List.not_mem_nil, or_false] at hp
    rcases hp with rfl | rfl | rfl | rfl
    · obtain ⟨y, h0, rfl⟩ := map_eq_ok.1 h
      obtain ⟨r1, h1, h2⟩ := pair_eq_ok.1 h0
      obtain ⟨a, qs', rfl, ha, rfl⟩ := (commaF_pieces hqs).1 h1
      obtain ⟨b, rfl, rfl, hb⟩ := commaRest.1 h2
      exact ⟨rfl, .both ha hb⟩
    · obtain ⟨y, h0, rfl⟩ := map_eq_ok.1 h
      obtain ⟨r1, z, h1, h2⟩ := preceded_eq_ok.1 h0
      obtain ⟨r2, h3, h4⟩ := pair_eq_ok.1 h1
      obtain ⟨h3, _⟩ := comma_eq_ok.1 h3
      obtain ⟨h4, _⟩ := comma_eq_ok.1 h4
      subst h4
      obtain ⟨a, qs1, rfl, h5⟩ := preC_eq_cons.1 h3
      obtain ⟨rfl, h6⟩ := noC_head (hqs a (by simp)) h5.symm
      obtain ⟨b, qs2, rfl, rfl⟩ := preC_eq_cons.1 h6
      simp only [context_eq_ok, cut_eq_ok] at h2
      obtain ⟨rfl, rfl, hb⟩ := (rest_num i32_num).1 h2
      exact ⟨rfl, .group hb⟩
    · obtain ⟨p, hp, h⟩ := alt_mem h
      simp only [List.mem_cons, List.not_mem_nil, or_false] at hp
      rcases hp with rfl | rfl
      · obtain ⟨h1, rfl, rfl⟩ := verifyRest.1 h
        rw [blank_preC] at h1
        subst h1
        exact ⟨rfl, .none⟩
      · obtain ⟨h1, rfl, rfl⟩ := verifyRest.1 h
        rw [beq_iff_eq] at h1
        obtain ⟨a, qs1, rfl, h5⟩ := preC_eq_cons.1 h1
        obtain ⟨rfl, h6⟩ := List.append_eq_nil_iff.1 h5.symm
        rw [preC_eq_nil] at h6
        subst h6
        exact ⟨rfl, .empty⟩
    · obtain ⟨y, h0, rfl⟩ := map_eq_ok.1 h
      obtain ⟨b, rfl, rfl, hb⟩ := commaRest.1 h0
      exact ⟨rfl, .stop hb⟩
  · obtain ⟨xe, xg⟩ := x
    rintro ⟨rfl, h⟩
    simp only at h
    -- the first alternative backtracks unless there are two fields, the first a number
    have alt1 : (∀ a b qs' n, qs = a :: b :: qs' → parseI32 a ≠ .ok n) →
        ∃ e, ((pair (preceded comma (commaFieldType parseI32))
          (preceded comma (context .invalidGroupNumber (cut (restType parseI32))))).map
          fun (e, g) => ((some e, some g) : Option Int32 × Option Int32) : Parser CmdErr _) (preC ',' qs) = .error e := by
      intro hn
      refine map_err ?_
      rcases softA (preC ',' qs) with ⟨r, a, ha⟩ | he
      · refine bind_err' ha (bind_err (preceded_err (comma_err ?_)))
        obtain ⟨q, qs', rfl, hq, rfl⟩ := (commaF_pieces hqs).1 ha
        intro r hr
        obtain ⟨b, qs2, rfl, _⟩ := preC_eq_cons.1 hr
        exact hn q b qs2 a rfl hq
      · exact bind_err he
    have alt2 : (∀ b qs', qs ≠ [] :: b :: qs') →
        ∃ e, ((preceded (pair comma comma) (context .invalidGroupNumber (cut (restType parseI32)))).map
          fun g => ((none, some g) : Option Int32 × Option Int32) : Parser CmdErr _) (preC ',' qs) = .error e := by
      intro hn
      refine map_err (preceded_err ((Soft.comma.pair Soft.comma).err ?_))
      intro r a h
      obtain ⟨r2, h3, h4⟩ := pair_eq_ok.1 h
      obtain ⟨h3, _⟩ := comma_eq_ok.1 h3
      obtain ⟨h4, _⟩ := comma_eq_ok.1 h4
      subst h4
      obtain ⟨a, qs1, rfl, h5⟩ := preC_eq_cons.1 h3
      obtain ⟨rfl, h6⟩ := noC_head (hqs a (by simp)) h5.symm
      obtain ⟨b, qs2, rfl, rfl⟩ := preC_eq_cons.1 h6
      exact hn _ _ rfl
    have alt3 : qs ≠ [] → qs ≠ [[]] → ∃ e, (alt [(verify rest fun s => (trim s).isEmpty).map fun _ => (none, none),
        (verify rest fun s => s == c!",").map fun _ => (none, none)] : Parser CmdErr (Option Int32 × Option Int32))
          (preC ',' qs) = .error e := by
      intro h1 h2
      obtain ⟨e, he⟩ := (softBlank (γ := CmdErr) (b := ((none, none) : Option Int32 × Option Int32))
        (f := fun s => (trim s).isEmpty)).err (s := preC ',' qs) (fun r a h => h1 (blank_preC.1 (verifyRest.1 h).1))
      obtain ⟨e', he'⟩ := (softBlank (γ := CmdErr) (b := ((none, none) : Option Int32 × Option Int32))
        (f := fun s => s == c!",")).err (s := preC ',' qs) (fun r a h => by
          have h3 := (verifyRest.1 h).1
          rw [beq_iff_eq] at h3
          obtain ⟨a, qs1, rfl, h5⟩ := preC_eq_cons.1 h3
          obtain ⟨rfl, h6⟩ := List.append_eq_nil_iff.1 h5.symm
          rw [preC_eq_nil] at h6
          subst h6
          exact h2 rfl)
      exact ⟨e' ++ [(preC ',' qs, .nom .alt)], by unfold alt; simp only [altAux, he, he']⟩
    cases h with
    | none =>
      refine alt_cons_err (alt1 (by simp)) (alt_cons_err (alt2 (by simp)) (alt_cons_ok (alt_cons_ok ?_)))
      exact verifyRest.2 ⟨blank_preC.2 rfl, rfl, rfl⟩
    | empty =>
      refine alt_cons_err (alt1 (by simp)) (alt_cons_err (alt2 (by simp)) (alt_cons_ok ?_))
      exact (alt_soft softBlank).2 (.inr ⟨fun r a h => by
        (have := blank_preC.1 (verifyRest.1 h).1; cases this), alt_cons_ok (verifyRest.2 ⟨rfl, rfl, rfl⟩)⟩)
    | stop ha =>
      rename_i a e
      have hne : a ≠ [] := (parseI32_chars ha).1
      refine alt_cons_err (alt1 (by simp)) (alt_cons_err (alt2 (by simp))
        (alt_cons_err (alt3 (by simp) (by simpa using hne)) (alt_cons_ok ?_)))
      exact map_eq_ok.2 ⟨_, commaRest.2 ⟨a, rfl, rfl, ha⟩, rfl⟩
    | both ha hb =>
      refine alt_cons_ok (map_eq_ok.2 ⟨(_, _), pair_eq_ok.2 ⟨_, (commaF_pieces hqs).2 ⟨_, _, rfl, ha, rfl⟩,
        commaRest.2 ⟨_, rfl, rfl, hb⟩⟩, rfl⟩)
    | group hb =>
      rename_i b g
      refine alt_cons_err (alt1 ?_) (alt_cons_ok (map_eq_ok.2 ⟨_, preceded_eq_ok.2 ⟨_, (_, _), pair_eq_ok.2 ⟨_, comma_preC,
        comma_preC⟩, ?_⟩, rfl⟩))
      · intro a b' qs' n h hn
        injection h with h _
        rw [← h] at hn
        exact parseI32_nil hn
      · simp only [context_eq_ok, cut_eq_ok]
        exact (rest_num i32_num).2 ⟨rfl, rfl, hb⟩

omit [DecLib D] in
theorem trigger_pieces [UniLib] {p : Str} {qs : List Str} (hp : NoC ',' p) (hqs : ∀ q ∈ qs, NoC ',' q) {r : Str} {c : Command D} :
    triggerP (p ++ preC ',' qs) = .ok r c ↔ p = c!"T" ∧ r = [] ∧ ∃ x qs' t st et g, qs = x :: qs' ∧
      TriggerType.parse x = .ok t ∧ TriggerTimes qs' st et g ∧ c = mk st (.trigger t et g []) := by
  unfold triggerP
  rw [map_eq_ok]
  simp only [preceded_eq_ok, pair_eq_ok, context_eq_ok, cut_eq_ok, tag_eq_ok, comma_eq_ok, bind_eq_ok, ret_eq_ok]
  constructor
  · rintro ⟨y, ⟨r1, z, ⟨r2, ⟨h1, _⟩, h2, _⟩, r3, t, h3, r4, st, h4, r5, tl, h5, rfl, rfl⟩, rfl⟩
    subst h2
    obtain ⟨rfl, h6⟩ := noC_unique hp (show NoC ',' c!"T" by intro c hc; simp at hc; subst hc; rfl) (atComma_preC qs) .cons h1
    obtain ⟨x, qs', rfl, rfl⟩ := preC_eq_cons.1 h6
    obtain ⟨s3, h3, ht⟩ := mapRes_eq_ok.1 h3
    rw [commaField_pieces (hqs x (by simp))] at h3
    cases h3
    have hqs' : ∀ q ∈ qs', NoC ',' q := fun q hq => hqs q (List.mem_cons_of_mem _ hq)
    obtain ⟨q, hq, h4⟩ := alt_mem h4
    simp only [List.mem_cons, List.not_mem_nil, or_false] at hq
    rcases hq with rfl | rfl | rfl
    · obtain ⟨q, qs2, rfl, rfl, rfl⟩ := (commaPeek_pieces hqs').1 h4
      obtain ⟨rfl, h7⟩ := (triggerTail_pieces fun q hq => hqs' q (List.mem_cons_of_mem _ hq)).1 h5
      exact ⟨rfl, rfl, x, _, t, none, tl.1, tl.2, rfl, ht, .skip h7, rfl⟩
    · obtain ⟨h6, rfl, rfl⟩ := verifyRest.1 h4
      rw [blank_preC] at h6
      subst h6
      have h5' : triggerTailP (preC ',' []) = .ok r tl := h5
      obtain ⟨rfl, h7⟩ := (triggerTail_pieces (qs := []) (by simp)).1 h5'
      obtain ⟨te, tg⟩ := tl
      simp only at h7
      cases h7
      exact ⟨rfl, rfl, x, [], t, none, none, none, rfl, ht, .none, rfl⟩
    · obtain ⟨a, qs2, n, rfl, rfl, ha, rfl⟩ := (startTime_pieces hqs').1 h4
      obtain ⟨rfl, h7⟩ := (triggerTail_pieces fun q hq => hqs' q (List.mem_cons_of_mem _ hq)).1 h5
      exact ⟨rfl, rfl, x, _, t, some n, tl.1, tl.2, rfl, ht, .start ha h7, rfl⟩
  · rintro ⟨rfl, rfl, x, qs', t, st, et, g, rfl, ht, htt, rfl⟩
    have hqs' : ∀ q ∈ qs', NoC ',' q := fun q hq => hqs q (List.mem_cons_of_mem _ hq)
    refine ⟨(t, st, et, g), ⟨x ++ preC ',' qs', (c!"T", c!","), ⟨preC ',' (x :: qs'), ⟨rfl, rfl⟩, preC_cons _ _ _, rfl⟩,
      preC ',' qs', t, mapRes_eq_ok.2 ⟨x, commaField_pieces (hqs x (by simp)), ht⟩, ?_⟩, rfl⟩
    cases htt with
    | none =>
      refine ⟨[], none, ?_, [], (none, none), (triggerTail_pieces (qs := []) (by simp)).2 ⟨rfl, .none⟩, rfl, rfl⟩
      refine (alt_soft softCommaPeek).2 (.inr ⟨?_, alt_cons_ok (verifyRest.2 ⟨rfl, rfl, rfl⟩)⟩)
      intro r x hx
      obtain ⟨_, _, h, _⟩ := (commaPeek_pieces hqs').1 hx
      cases h
    | skip h =>
      exact ⟨_, none, alt_cons_ok ((commaPeek_pieces hqs').2 ⟨_, _, rfl, rfl, rfl⟩), [], (et, g),
        (triggerTail_pieces fun q hq => hqs' q (List.mem_cons_of_mem _ hq)).2 ⟨rfl, h⟩, rfl, rfl⟩
    | start ha h =>
      rename_i a qs2 n
      refine ⟨preC ',' qs2, some n, ?_, [], (et, g),
        (triggerTail_pieces fun q hq => hqs' q (List.mem_cons_of_mem _ hq)).2 ⟨rfl, h⟩, rfl, rfl⟩
      refine (alt_soft softCommaPeek).2 (.inr ⟨?_, (alt_soft softBlank).2 (.inr ⟨?_, alt_cons_ok
        ((startTime_pieces hqs').2 ⟨a, _, n, rfl, rfl, ha, rfl⟩)⟩)⟩)
      · intro r x hx
        obtain ⟨_, _, h, _⟩ := (commaPeek_pieces hqs').1 hx
        injection h with h _
        rw [h] at ha
        exact parseI32_nil ha
      · intro r x hx
        have := blank_preC.1 (verifyRest.1 hx).1
        cases this

/-! ### The whole line -/

theorem NoC_hdr {h : Str} (hh : lacks ',' h = true) : NoC ',' h := lacks_iff.1 hh

theorem oneCmd {p : Str} {qs : List Str} (hp : NoC ',' p) (hqs : ∀ q ∈ qs, NoC ',' q) {h : Str} (hh : lacks ',' h = true)
    {e1 e2 e3 : CmdErr} {f : Option Int32 → Easing → Option Int32 → Decimal D → List (Decimal D) → Command D} {r : Str} {c : Command D} :
    (oneFieldP h e1 e2 e3).map (fun (t, x, xs) => f t.2.1 t.1 t.2.2 x xs) (p ++ preC ',' qs) = .ok r c ↔
      p = h ∧ r = [] ∧ ∃ e a b n st et x xs, qs = e :: a :: b :: x :: xs ∧ parseI32 e = .ok n ∧ TimesRead a b st et ∧
        c = f st (Easing.ofInt n) et (Decimal.ofStr x) (xs.map Decimal.ofStr) := by
  rw [map_eq_ok]
  constructor
  · rintro ⟨⟨⟨ea, st, et⟩, d, ds⟩, h1, rfl⟩
    obtain ⟨rfl, rfl, x, xs, ⟨e, a, b, n, rfl, hn, he, ht⟩, rfl, rfl⟩ := (oneField_pieces hp (NoC_hdr hh) hqs).1 h1
    simp only at he ht
    subst he
    exact ⟨rfl, rfl, e, a, b, n, st, et, x, xs, rfl, hn, ht, rfl⟩
  · rintro ⟨rfl, rfl, e, a, b, n, st, et, x, xs, rfl, hn, ht, rfl⟩
    exact ⟨((Easing.ofInt n, st, et), _, _), (oneField_pieces hp (NoC_hdr hh) hqs).2
      ⟨rfl, rfl, x, xs, ⟨e, a, b, n, rfl, hn, rfl, ht⟩, rfl, rfl⟩, rfl⟩

theorem twoBody_atComma {e1 e2 e3 e4 e5 : CmdErr} {s r : Str}
    {x : (Easing × Option Int32 × Option Int32) × ContinuingFields (Decimal D)}
    (h : twoBodyP e1 e2 e3 e4 e5 s = .ok r x) : AtComma s := timesBind_atComma h

theorem vectorScale_pieces {p : Str} {qs : List Str} (hp : NoC ',' p) (hqs : ∀ q ∈ qs, NoC ',' q) {r : Str} {c : Command D} :
    vectorScaleP (p ++ preC ',' qs) = .ok r c ↔
      p = c!"V" ∧ r = [] ∧ ∃ e a b n st et x y xs, qs = e :: a :: b :: x :: y :: xs ∧ parseI32 e = .ok n ∧ TimesRead a b st et ∧
        c = mk st (.vectorScale (Easing.ofInt n) et ⟨(Decimal.ofStr x, Decimal.ofStr y), twoByTwo (xs.map Decimal.ofStr)⟩) := by
  unfold vectorScaleP twoFieldsP
  rw [map_eq_ok]
  simp only [header_pieces hp (NoC_hdr (show lacks ',' c!"V" = true by rfl)) fun _ _ _ => twoBody_atComma]
  constructor
  · rintro ⟨⟨⟨ea, st, et⟩, cf⟩, ⟨rfl, h1⟩, rfl⟩
    obtain ⟨rfl, x, y, xs, ⟨e, a, b, n, rfl, hn, he, ht⟩, rfl⟩ := (twoBody_pieces hqs).1 h1
    simp only at he ht
    subst he
    exact ⟨rfl, rfl, e, a, b, n, st, et, x, y, xs, rfl, hn, ht, rfl⟩
  · rintro ⟨rfl, rfl, e, a, b, n, st, et, x, y, xs, rfl, hn, ht, rfl⟩
    exact ⟨((Easing.ofInt n, st, et), _), ⟨rfl, (twoBody_pieces hqs).2
      ⟨rfl, x, y, xs, ⟨e, a, b, n, rfl, hn, rfl, ht⟩, rfl⟩⟩, rfl⟩

theorem move_pieces {p : Str} {qs : List Str} (hp : NoC ',' p) (hqs : ∀ q ∈ qs, NoC ',' q) {r : Str} {c : Command D} :
    moveP (p ++ preC ',' qs) = .ok r c ↔
      p = c!"M" ∧ r = [] ∧ ∃ e a b n st et x y xs, qs = e :: a :: b :: x :: y :: xs ∧ parseI32 e = .ok n ∧ TimesRead a b st et ∧
        c = mk st (.move (Easing.ofInt n) et ⟨(Decimal.ofStr x, Decimal.ofStr y), twoByTwo (xs.map Decimal.ofStr)⟩) := by
  unfold moveP
  rw [map_eq_ok]
  simp only [preceded_eq_ok, pair_eq_ok, tag_eq_ok]
  constructor
  · rintro ⟨⟨⟨ea, st, et⟩, cf⟩, ⟨r1, _, ⟨r2, ⟨h1, _⟩, h2⟩, h3⟩, rfl⟩
    obtain ⟨rfl, _⟩ := peek_eq_ok.1 h2
    obtain ⟨rfl, h4⟩ := noC_unique hp (NoC_hdr (show lacks ',' c!"M" = true by rfl)) (atComma_preC qs) (twoBody_atComma h3) h1
    subst h4
    obtain ⟨rfl, x, y, xs, ⟨e, a, b, n, rfl, hn, he, ht⟩, rfl⟩ := (twoBody_pieces hqs).1 h3
    simp only at he ht
    subst he
    exact ⟨rfl, rfl, e, a, b, n, st, et, x, y, xs, rfl, hn, ht, rfl⟩
  · rintro ⟨rfl, rfl, e, a, b, n, st, et, x, y, xs, rfl, hn, ht, rfl⟩
    refine ⟨((Easing.ofInt n, st, et), _), ⟨_, (_, [',']), ⟨_, ⟨rfl, rfl⟩, peek_eq_ok.2 ⟨rfl, _, comma_preC⟩⟩,
      (twoBody_pieces hqs).2 ⟨rfl, x, y, xs, ⟨e, a, b, n, rfl, hn, rfl, ht⟩, rfl⟩⟩, rfl⟩

/-- An alternative with another header backtracks. -/
theorem hdr_err {α β : Type} {h s : Str} {k : Parser γ α} {f : α → β} (hs : h.isPrefixOf s = false) :
    ∃ e, (preceded (tag h) k).map f s = .error e := map_err (preceded_err (tag_err hs))

theorem move_err {s : Str} (hs : ∀ r, s ≠ 'M' :: ',' :: r) : ∃ e, (moveP : Parser CmdErr (Command D)) s = .error e := by
  refine map_err (preceded_err (((Soft.tag _).pair Soft.comma.peek).err ?_))
  intro r a h
  obtain ⟨r1, h1, h2⟩ := pair_eq_ok.1 h
  obtain ⟨rfl, r2, h3⟩ := peek_eq_ok.1 h2
  obtain ⟨h1, _⟩ := tag_eq_ok.1 h1
  obtain ⟨h3, _⟩ := comma_eq_ok.1 h3
  subst h3
  exact hs _ h1

omit [DecLib D] in
theorem trigger_err [UniLib] {s : Str} (hs : List.isPrefixOf c!"T" s = false) :
    ∃ e, (triggerP : Parser CmdErr (Command D)) s = .error e :=
  map_err (preceded_err (bind_err (tag_err hs)))

theorem move_err' {p : Str} {qs : List Str} (hp : p ≠ c!"M") (h : NoC ',' p) :
    ∃ e, (moveP : Parser CmdErr (Command D)) (p ++ preC ',' qs) = .error e := by
  refine move_err ?_
  intro r hr
  obtain ⟨h1, _⟩ := noC_unique (q := c!"M") (Y := ',' :: r) h (NoC_hdr (by rfl)) (atComma_preC qs) .cons hr
  exact hp h1

/-- The alternatives of the command parser on pieces. -/
theorem command_alt [UniLib] {p : Str} {qs : List Str} (hp : NoC ',' p) (hqs : ∀ q ∈ qs, NoC ',' q) {c : Command D} :
    (∃ r, alt [moveP, rotateP, scaleP, vectorScaleP, fadeP, parameterP, moveYP, colourP,
      moveXP, triggerP, loopP, context CmdErr.unknownCommandType Parser.fail] (p ++ preC ',' qs) = .ok r c) ↔
    CmdReads (p :: qs) c := by
  constructor
  · rintro ⟨r, h⟩
    obtain ⟨q, hq, h⟩ := alt_mem h
    simp only [List.mem_cons, List.not_mem_nil, or_false] at hq
    rcases hq with rfl | rfl | rfl | rfl | rfl | rfl | rfl | rfl | rfl | rfl | rfl | rfl
    · obtain ⟨rfl, rfl, e, a, b, n, st, et, x, y, xs, rfl, hn, ht, rfl⟩ := (move_pieces hp hqs).1 h
      exact .move hn ht
    · obtain ⟨rfl, rfl, e, a, b, n, st, et, x, xs, rfl, hn, ht, rfl⟩ :=
        (oneCmd hp hqs (by rfl) (f := fun st e et x xs => mk st (.rotate e et x xs))).1 h
      exact .rotate hn ht
    · obtain ⟨rfl, rfl, e, a, b, n, st, et, x, xs, rfl, hn, ht, rfl⟩ :=
        (oneCmd hp hqs (by rfl) (f := fun st e et x xs => mk st (.scale e et x xs))).1 h
      exact .scale hn ht
    · obtain ⟨rfl, rfl, e, a, b, n, st, et, x, y, xs, rfl, hn, ht, rfl⟩ := (vectorScale_pieces hp hqs).1 h
      exact .vectorScale hn ht
    · obtain ⟨rfl, rfl, e, a, b, n, st, et, x, xs, rfl, hn, ht, rfl⟩ :=
        (oneCmd hp hqs (by rfl) (f := fun st e et x xs => mk st (.fade e et x xs))).1 h
      exact .fade hn ht
    · obtain ⟨rfl, rfl, ⟨ea, st, et⟩, x, xs, a, l, ⟨e, a', b, n, rfl, hn, he, ht⟩, ha, hl, rfl⟩ := (parameter_pieces hp hqs).1 h
      simp only at he ht
      subst he
      exact .parameter hn ht ha hl
    · obtain ⟨rfl, rfl, e, a, b, n, st, et, x, xs, rfl, hn, ht, rfl⟩ :=
        (oneCmd hp hqs (by rfl) (f := fun st e et x xs => mk st (.moveY e et x xs))).1 h
      exact .moveY hn ht
    · obtain ⟨rfl, rfl, ⟨ea, st, et⟩, x, y, z, xs, r, g, bl, l, ⟨e, a', b, n, rfl, hn, he, ht⟩, hx, hy, hz, hl, rfl⟩ :=
        (colour_pieces hp hqs).1 h
      simp only at he ht
      subst he
      exact .colour hn ht hx hy hz hl
    · obtain ⟨rfl, rfl, e, a, b, n, st, et, x, xs, rfl, hn, ht, rfl⟩ :=
        (oneCmd hp hqs (by rfl) (f := fun st e et x xs => mk st (.moveX e et x xs))).1 h
      exact .moveX hn ht
    · obtain ⟨rfl, rfl, x, qs', t, st, et, g, rfl, hx, ht, rfl⟩ := (trigger_pieces hp hqs).1 h
      exact .trigger hx ht
    · obtain ⟨rfl, rfl, a, b, st, n, rfl, ha, hb, rfl⟩ := (loop_pieces hp hqs).1 h
      exact .loop ha hb
    · rw [context_eq_ok] at h; cases h
  · intro h
    cases h with
    | move he ht => exact ⟨[], alt_cons_ok ((move_pieces hp hqs).2 ⟨rfl, rfl, _, _, _, _, _, _, _, _, _, rfl, he, ht, rfl⟩)⟩
    | rotate he ht =>
      refine ⟨[], alt_cons_err (move_err' (by decide) hp) (alt_cons_ok ?_)⟩
      exact (oneCmd hp hqs (by rfl) (f := fun st e et x xs => mk st (.rotate e et x xs))).2
        ⟨rfl, rfl, _, _, _, _, _, _, _, _, rfl, he, ht, rfl⟩
    | scale he ht =>
      refine ⟨[], alt_cons_err (move_err' (by decide) hp) (alt_cons_err (hdr_err rfl) (alt_cons_ok ?_))⟩
      exact (oneCmd hp hqs (by rfl) (f := fun st e et x xs => mk st (.scale e et x xs))).2
        ⟨rfl, rfl, _, _, _, _, _, _, _, _, rfl, he, ht, rfl⟩
    | vectorScale he ht =>
      refine ⟨[], alt_cons_err (move_err' (by decide) hp) (alt_cons_err (hdr_err rfl) (alt_cons_err (hdr_err rfl) (alt_cons_ok ?_)))⟩
      exact (vectorScale_pieces hp hqs).2 ⟨rfl, rfl, _, _, _, _, _, _, _, _, _, rfl, he, ht, rfl⟩
    | fade he ht =>
      refine ⟨[], alt_cons_err (move_err' (by decide) hp) (alt_cons_err (hdr_err rfl) (alt_cons_err (hdr_err rfl)
        (alt_cons_err (hdr_err rfl) (alt_cons_ok ?_))))⟩
      exact (oneCmd hp hqs (by rfl) (f := fun st e et x xs => mk st (.fade e et x xs))).2
        ⟨rfl, rfl, _, _, _, _, _, _, _, _, rfl, he, ht, rfl⟩
    | parameter he ht ha hl =>
      refine ⟨[], alt_cons_err (move_err' (by decide) hp) (alt_cons_err (hdr_err rfl) (alt_cons_err (hdr_err rfl)
        (alt_cons_err (hdr_err rfl) (alt_cons_err (hdr_err rfl) (alt_cons_ok ?_)))))⟩
      exact (parameter_pieces hp hqs).2 ⟨rfl, rfl, (_, _, _), _, _, _, _, ⟨_, _, _, _, rfl, he, rfl, ht⟩, ha, hl, rfl⟩
    | moveY he ht =>
      refine ⟨[], alt_cons_err (move_err' (by decide) hp) (alt_cons_err (hdr_err rfl) (alt_cons_err (hdr_err rfl)
        (alt_cons_err (hdr_err rfl) (alt_cons_err (hdr_err rfl) (alt_cons_err (hdr_err rfl) (alt_cons_ok ?_))))))⟩
      exact (oneCmd hp hqs (by rfl) (f := fun st e et x xs => mk st (.moveY e et x xs))).2
        ⟨rfl, rfl, _, _, _, _, _, _, _, _, rfl, he, ht, rfl⟩
    | colour he ht hx hy hz hl =>
      refine ⟨[], alt_cons_err (move_err' (by decide) hp) (alt_cons_err (hdr_err rfl) (alt_cons_err (hdr_err rfl)
        (alt_cons_err (hdr_err rfl) (alt_cons_err (hdr_err rfl) (alt_cons_err (hdr_err rfl)
        (alt_cons_err (hdr_err rfl) (alt_cons_ok ?_)))))))⟩
      exact (colour_pieces hp hqs).2 ⟨rfl, rfl, (_, _, _), _, _, _, _, _, _, _, _, ⟨_, _, _, _, rfl, he, rfl, ht⟩, hx, hy, hz, hl, rfl⟩
    | moveX he ht =>
      refine ⟨[], alt_cons_err (move_err' (by decide) hp) (alt_cons_err (hdr_err rfl) (alt_cons_err (hdr_err rfl)
        (alt_cons_err (hdr_err rfl) (alt_cons_err (hdr_err rfl) (alt_cons_err (hdr_err rfl)
        (alt_cons_err (hdr_err rfl) (alt_cons_err (hdr_err rfl) (alt_cons_ok ?_))))))))⟩
      exact (oneCmd hp hqs (by rfl) (f := fun st e et x xs => mk st (.moveX e et x xs))).2
        ⟨rfl, rfl, _, _, _, _, _, _, _, _, rfl, he, ht, rfl⟩
    | trigger hx ht =>
      refine ⟨[], alt_cons_err (move_err' (by decide) hp) (alt_cons_err (hdr_err rfl) (alt_cons_err (hdr_err rfl)
        (alt_cons_err (hdr_err rfl) (alt_cons_err (hdr_err rfl) (alt_cons_err (hdr_err rfl)
        (alt_cons_err (hdr_err rfl) (alt_cons_err (hdr_err rfl) (alt_cons_err (hdr_err rfl) (alt_cons_ok ?_)))))))))⟩
      exact (trigger_pieces hp hqs).2 ⟨rfl, rfl, _, _, _, _, _, _, rfl, hx, ht, rfl⟩
    | loop ha hb =>
      refine ⟨[], alt_cons_err (move_err' (by decide) hp) (alt_cons_err (hdr_err rfl) (alt_cons_err (hdr_err rfl)
        (alt_cons_err (hdr_err rfl) (alt_cons_err (hdr_err rfl) (alt_cons_err (hdr_err rfl)
        (alt_cons_err (hdr_err rfl) (alt_cons_err (hdr_err rfl) (alt_cons_err (hdr_err rfl)
        (alt_cons_err (trigger_err rfl) (alt_cons_ok ?_))))))))))⟩
      exact (loop_pieces hp hqs).2 ⟨rfl, rfl, _, _, _, _, rfl, ha, hb, rfl⟩

/-- The command parser accepts exactly the grammar. -/
theorem command_reads [UniLib] {s : Str} {c : Command D} :
    Command.parse s = .ok c ↔ CmdReads (splitOnC ',' (s.dropWhile isIndent)) c := by
  unfold Command.parse commandP
  rw [toRes_eq_ok]
  obtain ⟨p, qs, hs⟩ : ∃ p qs, splitOnC ',' (s.dropWhile isIndent) = p :: qs := by
    cases h : splitOnC ',' (s.dropWhile isIndent) with
    | nil => exact absurd h (splitOnC_ne_nil _ _)
    | cons p qs => exact ⟨p, qs, rfl⟩
  obtain ⟨h1, hp, hqs⟩ := splitOnC_iff.1 hs
  rw [hs, ← command_alt hp hqs, ← h1]
  constructor
  · rintro ⟨r, h⟩
    obtain ⟨r1, _, h2, h3⟩ := preceded_eq_ok.1 h
    cases h2
    exact ⟨r, h3⟩
  · rintro ⟨r, h⟩
    exact ⟨r, preceded_eq_ok.2 ⟨_, _, rfl, h⟩⟩

end Command
end SB
end Osu
