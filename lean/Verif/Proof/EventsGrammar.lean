/-
Event lines are accepted exactly if their pieces have the form given by `EvReads`.
-/
import Verif.Spec.Events
import Verif.Proof.CmdsGrammar

namespace Osu
open SB Parser
variable {D : Type} [DecLib D] {γ : Type}

omit [DecLib D] in
theorem Ev.shiftUp_iff {v : Nat} {n n' : Int32} : Ev.shiftUp v n = some n' ↔ OldTime v n n' := by
  unfold Ev.shiftUp OldTime
  have hv : (3 ≤ v ∧ v ≤ 4) ↔ (v = 3 ∨ v = 4) := by omega
  simp only [hv]
  have b1 := n'.toInt_lt
  have b2 := n.le_toInt
  by_cases h : v = 3 ∨ v = 4
  · simp only [h, if_true]
    split
    · rename_i hle
      have e : (n + 24).toInt = n.toInt + 24 := by
        rw [Int32.toInt_add]
        have : (24 : Int32).toInt = 24 := by decide
        rw [this]
        exact Int.bmod_eq_of_le (by omega) (by omega)
      constructor
      · intro h; injection h with h; rw [← h, e]
      · intro h; congr 1; apply Int32.toInt_inj.1; rw [e, h]
    · rename_i hle
      constructor
      · intro h; cases h
      · intro h; exfalso; omega
  · simp only [h, if_false]
    constructor
    · intro h; injection h with h; rw [h]; omega
    · intro h; congr 1; apply Int32.toInt_inj.1; omega

theorem table_get {α : Type} (f : UInt64 → Option α) (t : List α) (n : UInt64)
    (h : ∀ i, i < t.length → f (UInt64.ofNat i) = t[i]?) (h' : ∀ i : UInt64, t.length ≤ i.toNat → f i = none) :
    f n = t[n.toNat]? := by
  by_cases hn : n.toNat < t.length
  · have := h n.toNat hn
    rwa [UInt64.ofNat_toNat] at this
  · rw [h' n (by omega), List.getElem?_eq_none (by omega)]

theorem parseRepr_iff {α : Type} {f : UInt64 → Option α} {t : List α} (h : ∀ n, f n = t[n.toNat]?) {s : Str} {a : α} :
    Ev.parseRepr f s = .ok a ↔ CodeReads t s a := by
  unfold Ev.parseRepr CodeReads
  cases hs : parseUsize s with
  | ok n =>
    simp only [h]
    cases ht : t[n.toNat]? with
    | none =>
      constructor
      · intro h; cases h
      · rintro ⟨m, hm, hm'⟩; cases hm; rw [ht] at hm'; cases hm'
    | some b =>
      constructor
      · intro h; injection h with h; subst h; exact ⟨n, rfl, ht⟩
      · rintro ⟨m, hm, hm'⟩; cases hm; rw [ht] at hm'; cases hm'; rfl
  | err e => simp
  | panic => simp

theorem layerLegacy_code (n : UInt64) : Ev.LayerLegacy.ofCode n = legacyLayers[n.toNat]? := by
  refine table_get _ _ n (by decide) ?_
  intro i hi
  have hi : 6 ≤ i.toNat := hi
  unfold Ev.LayerLegacy.ofCode
  have : ∀ k : UInt64, k.toNat < 6 → i ≠ k := by rintro k hk rfl; omega
  simp [this 0 (by decide), this 1 (by decide), this 2 (by decide), this 3 (by decide), this 4 (by decide), this 5 (by decide)]

theorem originLegacy_code (n : UInt64) : Ev.OriginLegacy.ofCode n = legacyOrigins[n.toNat]? := by
  refine table_get _ _ n (by decide) ?_
  intro i hi
  have hi : 10 ≤ i.toNat := hi
  unfold Ev.OriginLegacy.ofCode
  have : ∀ k : UInt64, k.toNat < 10 → i ≠ k := by rintro k hk rfl; omega
  simp [this 0 (by decide), this 1 (by decide), this 2 (by decide), this 3 (by decide), this 4 (by decide), this 5 (by decide),
    this 6 (by decide), this 7 (by decide), this 8 (by decide), this 9 (by decide)]

theorem audioLayer_code (n : UInt64) : Ev.AudioLayer.ofCode n = audioLayers[n.toNat]? := by
  refine table_get _ _ n (by decide) ?_
  intro i hi
  have hi : 4 ≤ i.toNat := hi
  unfold Ev.AudioLayer.ofCode
  have : ∀ k : UInt64, k.toNat < 4 → i ≠ k := by rintro k hk rfl; omega
  simp [this 0 (by decide), this 1 (by decide), this 2 (by decide), this 3 (by decide)]

theorem volume_iff {s : Str} {v : Ev.Volume} : Ev.Volume.parse s = .ok v ↔ VolReads s v := by
  unfold Ev.Volume.parse VolReads Ev.Volume.new
  cases hs : parseU8 s with
  | ok n =>
    simp only
    by_cases h : n > 100
    · simp only [h, if_true]
      constructor
      · intro h; cases h
      · rintro ⟨h1, h2⟩
        cases h1
        have : (100 : UInt8).toNat < v.val.toNat := UInt8.lt_iff_toNat_lt.1 h
        have e : (100 : UInt8).toNat = 100 := rfl
        omega
    · simp only [h, if_false]
      constructor
      · intro h'; cases h'
        refine ⟨rfl, ?_⟩
        have e : (100 : UInt8).toNat = 100 := rfl
        have := fun h2 => h (UInt8.lt_iff_toNat_lt.2 h2)
        rw [e] at this
        exact Nat.le_of_not_lt this
      · rintro ⟨h1, h2⟩; cases h1; rfl
  | err e => simp
  | panic => simp

theorem layer_iff {s : Str} {l : Layer} : Layer.parse s = .ok l ↔ s = l.shw := by
  constructor
  · intro h
    unfold Layer.parse at h
    split at h <;> rename_i hs
    · cases h; exact hs
    · split at h <;> rename_i hs
      · cases h; exact hs
      · split at h <;> rename_i hs
        · cases h; exact hs
        · split at h <;> rename_i hs
          · cases h; exact hs
          · split at h <;> rename_i hs
            · cases h; exact hs
            · cases h
  · rintro rfl; cases l <;> rfl

theorem loopType_iff {s : Str} {l : LoopType} : LoopType.parse s = .ok l ↔ s = l.shw := by
  constructor
  · intro h
    unfold LoopType.parse at h
    split at h <;> rename_i hs
    · cases h; exact hs
    · split at h <;> rename_i hs
      · cases h; exact hs
      · cases h
  · rintro rfl; cases l <;> rfl

theorem originName_iff {s : Str} {t : OriginType} : OriginType.ofName s = some t ↔ s = t.shw := by
  constructor
  · intro h
    unfold OriginType.ofName at h
    iterate 10
      split at h
      · rename_i hs; cases h; exact hs
    cases h
  · rintro rfl; cases t <;> rfl

theorem originInt (n : Int32) : OriginType.ofInt n = if 0 ≤ n.toInt then originTypes[n.toInt.toNat]? else none := by
  by_cases h : 0 ≤ n.toInt ∧ n.toInt ≤ 9
  · obtain ⟨h0, h9⟩ := h
    rw [if_pos h0]
    have : n.toInt = 0 ∨ n.toInt = 1 ∨ n.toInt = 2 ∨ n.toInt = 3 ∨ n.toInt = 4 ∨ n.toInt = 5 ∨ n.toInt = 6 ∨ n.toInt = 7 ∨
      n.toInt = 8 ∨ n.toInt = 9 := by omega
    have e : n = Int32.ofInt n.toInt := (Int32.ofInt_toInt n).symm
    rcases this with h | h | h | h | h | h | h | h | h | h <;> (rw [h] at e ⊢; subst e; rfl)
  · have : ∀ k : Int32, 0 ≤ k.toInt ∧ k.toInt ≤ 9 → n ≠ k := by rintro k hk rfl; exact h hk
    have e : OriginType.ofInt n = none := by
      unfold OriginType.ofInt
      rw [if_neg (this 0 (by decide)), if_neg (this 1 (by decide)), if_neg (this 2 (by decide)), if_neg (this 3 (by decide)),
        if_neg (this 4 (by decide)), if_neg (this 5 (by decide)), if_neg (this 6 (by decide)), if_neg (this 7 (by decide)),
        if_neg (this 8 (by decide)), if_neg (this 9 (by decide))]
    rw [e]
    split
    · rw [List.getElem?_eq_none]
      show 10 ≤ _
      omega
    · rfl

theorem originName_num (t : OriginType) (n : Int32) : parseI32 t.shw ≠ .ok n := by
  intro h
  have := (parseI32_chars h).2
  cases t <;> exact absurd this (by unfold AllC; decide)

theorem origin_iff {s : Str} {o : Origin} : Origin.parse s = .ok o ↔ OriginReads s o := by
  unfold Origin.parse
  cases hn : OriginType.ofName s with
  | some t =>
    have := originName_iff.1 hn
    subst this
    constructor
    · intro h; cases h; exact .name t
    · intro h
      generalize hs : t.shw = s at h
      cases h with
      | name t' =>
        have : t = t' := by cases t <;> cases t' <;> first | rfl | exact absurd hs (by decide)
        subst this; rfl
      | code h => rw [← hs] at h; exact absurd h (originName_num _ _)
      | other h => rw [← hs] at h; exact absurd h (originName_num _ _)
  | none =>
    have hno : ∀ t : OriginType, s ≠ t.shw := by
      intro t ht
      rw [originName_iff.2 ht] at hn; cases hn
    cases hp : parseI32 s with
    | err e =>
      simp only [Res.bind]
      constructor
      · intro h; cases h
      · intro h
        cases h with
        | name t => exact absurd rfl (hno t)
        | code h => rw [hp] at h; cases h
        | other h => rw [hp] at h; cases h
    | panic => exact absurd hp (parseI32_no_panic _)
    | ok n =>
      simp only [Res.bind]
      rw [originInt]
      constructor
      · intro h
        split at h
        · rename_i t ht
          cases h
          split at ht
          · rename_i h0; exact .code hp h0 ht
          · cases ht
        · rename_i ht
          cases h
          refine .other hp ?_
          split at ht
          · have := List.getElem?_eq_none_iff.1 ht
            have : 10 ≤ n.toInt.toNat := this
            omega
          · omega
      · intro h
        cases h with
        | name t => exact absurd rfl (hno t)
        | code h h0 ht =>
          rw [hp] at h; cases h
          simp only [h0, if_true, ht]
        | other h hn =>
          rw [hp] at h; cases h
          have : (if 0 ≤ n.toInt then originTypes[n.toInt.toNat]? else none) = none := by
            split
            · apply List.getElem?_eq_none
              show 10 ≤ _
              omega
            · rfl
          rw [this]

/-! ### Pieces -/

theorem hdrComma_pieces {α : Type} {e1 e2 : γ} {h : Str} {k : Parser γ α} {p : Str} {qs : List Str} (hp : NoC ',' p)
    (hh : NoC ',' h) {r : Str} {a : α} :
    preceded (pair (context e1 (tag h)) (context e2 comma)) k (p ++ preC ',' qs) = .ok r a ↔
      p = h ∧ ∃ q qs', qs = q :: qs' ∧ k (q ++ preC ',' qs') = .ok r a := by
  rw [preceded_eq_ok]
  simp only [pair_eq_ok, context_eq_ok]
  constructor
  · rintro ⟨r1, x, ⟨r2, h1, h2⟩, h3⟩
    obtain ⟨h1, _⟩ := tag_eq_ok.1 h1
    obtain ⟨h2, _⟩ := comma_eq_ok.1 h2
    subst h2
    obtain ⟨rfl, h4⟩ := noC_unique hp hh (atComma_preC qs) .cons h1
    obtain ⟨q, qs', rfl, rfl⟩ := preC_eq_cons.1 h4
    exact ⟨rfl, q, qs', rfl, h3⟩
  · rintro ⟨rfl, q, qs', rfl, h3⟩
    exact ⟨_, (p, [',']), ⟨_, tag_eq_ok.2 ⟨rfl, rfl⟩, Command.comma_preC⟩, h3⟩

namespace Ev

theorem headerP_pieces {α : Type} {a b : Str} {k : Bool → Parser NEErr α} {p : Str} {qs : List Str} (hp : NoC ',' p)
    (ha : NoC ',' a) (hb : NoC ',' b) (hab : ∀ X, a.isPrefixOf (b ++ X) = false)
    (hk : ∀ sh s r x, k sh s = .ok r x → AtComma s) {r : Str} {x : α} :
    (headerP a b).bind k (p ++ preC ',' qs) = .ok r x ↔
      ∃ sh, p = (if sh then a else b) ∧ k sh (preC ',' qs) = .ok r x := by
  rw [bind_eq_ok]
  unfold headerP
  constructor
  · rintro ⟨r1, sh, h1, h2⟩
    obtain ⟨q, hq, h1⟩ := alt_mem h1
    simp only [List.mem_cons, List.not_mem_nil, or_false] at hq
    rcases hq with rfl | rfl
    · obtain ⟨_, h3, rfl⟩ := map_eq_ok.1 h1
      obtain ⟨h4, _⟩ := tag_eq_ok.1 h3
      obtain ⟨rfl, rfl⟩ := noC_unique hp ha (atComma_preC qs) (hk _ _ _ _ h2) h4
      exact ⟨true, rfl, h2⟩
    · rw [context_eq_ok] at h1
      obtain ⟨_, h3, rfl⟩ := map_eq_ok.1 h1
      obtain ⟨h4, _⟩ := tag_eq_ok.1 h3
      obtain ⟨rfl, rfl⟩ := noC_unique hp hb (atComma_preC qs) (hk _ _ _ _ h2) h4
      exact ⟨false, rfl, h2⟩
  · rintro ⟨sh, rfl, h⟩
    cases sh with
    | true => exact ⟨_, true, alt_cons_ok (map_eq_ok.2 ⟨_, tag_eq_ok.2 ⟨rfl, rfl⟩, rfl⟩), h⟩
    | false =>
      refine ⟨_, false, alt_cons_err (map_err (tag_err (hab _))) (alt_cons_ok ?_), h⟩
      rw [context_eq_ok]
      exact map_eq_ok.2 ⟨_, tag_eq_ok.2 ⟨rfl, rfl⟩, rfl⟩

theorem commaCtx_at {α : Type} {e : γ} {k : Parser γ α} {s r : Str} {x : α}
    (h : preceded (context e comma) k s = .ok r x) : AtComma s := by
  obtain ⟨r1, _, h1, _⟩ := preceded_eq_ok.1 h
  rw [context_eq_ok] at h1
  obtain ⟨rfl, _⟩ := comma_eq_ok.1 h1
  exact .cons

theorem commaBind_at {α β : Type} {e : γ} {k : Parser γ α} {f : α → Parser γ β} {s r : Str} {x : β}
    (h : (preceded (context e comma) k).bind f s = .ok r x) : AtComma s := by
  obtain ⟨r1, a, h1, _⟩ := bind_eq_ok.1 h
  exact commaCtx_at h1

omit [DecLib D] in
theorem startTime_pieces {v : Nat} {e : NEErr} {qs : List Str} (hqs : ∀ q ∈ qs, NoC ',' q) {r : Str} {n' : Int32} :
    preceded (context e comma) (startTimeOffset v) (preC ',' qs) = .ok r n' ↔
      ∃ q qs' n, qs = q :: qs' ∧ parseI32 q = .ok n ∧ OldTime v n n' ∧ r = preC ',' qs' := by
  rw [comma_pieces]
  unfold startTimeOffset
  simp only [context_eq_ok, mapP_eq_ok]
  constructor
  · rintro ⟨q, qs', rfl, n, h1, h2⟩
    obtain ⟨h3, rfl⟩ := (commaFieldType_pieces (hqs q (by simp))).1 h1
    exact ⟨q, qs', n, rfl, h3, shiftUp_iff.1 h2, rfl⟩
  · rintro ⟨q, qs', n, rfl, h1, h2, rfl⟩
    exact ⟨q, qs', rfl, n, (commaFieldType_pieces (hqs q (by simp))).2 ⟨h1, rfl⟩, shiftUp_iff.2 h2⟩

omit [DecLib D] in
theorem startTime_first {v : Nat} {q : Str} {qs : List Str} (hq : NoC ',' q) {r : Str} {n' : Int32} :
    startTimeOffset v (q ++ preC ',' qs) = .ok r n' ↔ ∃ n, parseI32 q = .ok n ∧ OldTime v n n' ∧ r = preC ',' qs := by
  unfold startTimeOffset
  simp only [context_eq_ok, mapP_eq_ok]
  constructor
  · rintro ⟨n, h1, h2⟩
    obtain ⟨h3, rfl⟩ := (commaFieldType_pieces hq).1 h1
    exact ⟨n, h3, shiftUp_iff.1 h2, rfl⟩
  · rintro ⟨n, h1, h2, rfl⟩
    exact ⟨n, (commaFieldType_pieces hq).2 ⟨h1, rfl⟩, shiftUp_iff.2 h2⟩

omit [DecLib D] in
theorem endTime_pieces {v : Nat} {e : NEErr} {qs : List Str} {r : Str} {n' : Int32} :
    preceded (context e comma) (endTimeOffset v) (preC ',' qs) = .ok r n' ↔
      ∃ q n, qs = [q] ∧ parseI32 q = .ok n ∧ OldTime v n n' ∧ r = [] := by
  rw [comma_pieces]
  unfold endTimeOffset restType
  simp only [context_eq_ok, mapP_eq_ok, Command.rest_num Command.i32_num]
  constructor
  · rintro ⟨q, _, rfl, n, ⟨rfl, rfl, h1⟩, h2⟩
    exact ⟨q, n, rfl, h1, shiftUp_iff.1 h2, rfl⟩
  · rintro ⟨q, n, rfl, h1, h2, rfl⟩
    exact ⟨q, [], rfl, n, ⟨rfl, rfl, h1⟩, shiftUp_iff.2 h2⟩

theorem filePos_pieces {f : Str} {qs : List Str} (hf : NoC ',' f) (hqs : ∀ q ∈ qs, NoC ',' q) {r : Str}
    {x : FilePath × Option (Position D)} :
    fileNameAndPosition (f ++ preC ',' qs) = .ok r x ↔ r = [] ∧ x.1 = f ∧ PosReads qs x.2 := by
  unfold fileNameAndPosition
  rw [pair_eq_ok]
  simp only [commaField_pieces hf]
  constructor
  · rintro ⟨r1, h1, h2⟩
    injection h1 with h1 h3
    subst h1
    obtain ⟨o, h2, h4⟩ := map_eq_ok.1 h2
    rcases alt_cons_eq_ok.1 h2 with h | ⟨_, h⟩
    · obtain ⟨_, g1, rfl⟩ := map_eq_ok.1 h
      obtain ⟨g2, rfl, _⟩ := eof_eq_ok.1 g1
      have := preC_eq_nil.1 g2
      subst this
      refine ⟨rfl, h3.symm, ?_⟩
      rw [← h4]; exact .none
    · rcases alt_cons_eq_ok.1 h with h | ⟨_, h⟩
      · obtain ⟨⟨a, b⟩, g1, rfl⟩ := map_eq_ok.1 h
        obtain ⟨r1, h5, h6⟩ := pair_eq_ok.1 g1
        obtain ⟨q, qs', rfl, hq, rfl⟩ := (commaThen_pieces hqs).1 h5
        obtain ⟨q2, qs2, rfl, h7⟩ := comma_pieces.1 h6
        rw [context_eq_ok] at h7
        obtain ⟨t, h8, h9⟩ := mapRes_eq_ok.1 h7
        obtain ⟨rfl, rfl⟩ := rest_eq_ok.1 h8
        simp only at hq h9
        have e1 := Command.decParse_ok.1 hq
        have e2 := Command.decParse_ok.1 h9
        refine ⟨rfl, h3.symm, ?_⟩
        rw [← h4, e1, e2, ← join_eq_preC]
        exact .some _ _ _
      · exact (alt_nil_eq_ok.1 h).elim
  · rintro ⟨rfl, h1, h2⟩
    obtain ⟨x1, x2⟩ := x
    simp only at h1 h2
    subst h1
    refine ⟨preC ',' qs, rfl, ?_⟩
    cases h2 with
    | none => exact map_eq_ok.2 ⟨none, alt_cons_ok (map_eq_ok.2 ⟨_, eof_eq_ok.2 ⟨rfl, rfl, rfl⟩, rfl⟩), rfl⟩
    | some a b qs =>
      refine map_eq_ok.2 ⟨some (.ofStr a, .ofStr (join [','] (b :: qs))), ?_, rfl⟩
      refine alt_cons_err (map_err ?_) (alt_cons_ok ?_)
      · rw [preC_cons]; exact ⟨_, rfl⟩
      · refine map_eq_ok.2 ⟨_, pair_eq_ok.2 ⟨preC ',' (b :: qs), ?_, ?_⟩, rfl⟩
        · exact (commaThen_pieces hqs).2 ⟨a, _, rfl, rfl, rfl⟩
        · refine comma_pieces.2 ⟨b, qs, rfl, ?_⟩
          rw [context_eq_ok]
          refine mapRes_eq_ok.2 ⟨_, rest_eq_ok.2 ⟨rfl, rfl⟩, ?_⟩
          rw [← join_eq_preC]; rfl

theorem fileThen_pieces {α : Type} {e : NEErr} {qs : List Str} (hqs : ∀ q ∈ qs, NoC ',' q) {r : Str}
    {k : FilePath × Option (Position D) → α} {x : α} :
    (preceded (context e comma) fileNameAndPosition).bind (fun y => ret (k y)) (preC ',' qs) = .ok r x ↔
      ∃ f ps pos, qs = f :: ps ∧ r = [] ∧ PosReads ps pos ∧ x = k (f, pos) := by
  rw [bind_eq_ok]
  simp only [comma_pieces, ret_eq_ok]
  constructor
  · rintro ⟨r1, ⟨f, pos⟩, ⟨q, qs', rfl, h1⟩, rfl, rfl⟩
    obtain ⟨rfl, rfl, h3⟩ := (filePos_pieces (hqs q (by simp)) (fun q' hq' => hqs q' (by simp [hq']))).1 h1
    exact ⟨_, qs', pos, rfl, rfl, h3, rfl⟩
  · rintro ⟨f, ps, pos, rfl, rfl, h, rfl⟩
    exact ⟨[], (f, pos), ⟨f, ps, rfl, (filePos_pieces (hqs f (by simp)) (fun q' hq' => hqs q' (by simp [hq']))).2 ⟨rfl, rfl, h⟩⟩, rfl, rfl⟩

theorem tail_noC {q : Str} {qs : List Str} (h : ∀ x ∈ q :: qs, NoC ',' x) : ∀ x ∈ qs, NoC ',' x :=
  fun x hx => h x (by simp [hx])

theorem background_iff {p : Str} {qs : List Str} (hp : NoC ',' p) (hqs : ∀ q ∈ qs, NoC ',' q) {b : Background D} :
    Background.parse (p ++ preC ',' qs) = .ok b ↔ ∃ t f ps n pos, p = c!"0" ∧ qs = t :: f :: ps ∧ parseI32 t = .ok n ∧
      PosReads ps pos ∧ b = ⟨n, f, pos, []⟩ := by
  unfold Background.parse
  rw [toRes_eq_ok]
  simp only [hdrComma_pieces hp (Command.NoC_hdr (h := c!"0") (by rfl)), bind_eq_ok (p := context _ _), context_eq_ok]
  constructor
  · rintro ⟨r, rfl, q, qs', rfl, r1, n, h1, h2⟩
    obtain ⟨h3, rfl⟩ := (commaFieldType_pieces (hqs q (by simp))).1 h1
    obtain ⟨f, ps, pos, rfl, _, h4, rfl⟩ := (fileThen_pieces (tail_noC hqs)).1 h2
    exact ⟨q, f, ps, n, pos, rfl, rfl, h3, h4, rfl⟩
  · rintro ⟨t, f, ps, n, pos, rfl, rfl, h1, h2, rfl⟩
    refine ⟨[], rfl, t, _, rfl, _, n, (commaFieldType_pieces (hqs t (by simp))).2 ⟨h1, rfl⟩, ?_⟩
    exact (fileThen_pieces (k := fun y => (⟨n, y.1, y.2, []⟩ : Background D)) (tail_noC hqs)).2 ⟨f, ps, pos, rfl, rfl, h2, rfl⟩

theorem video_iff {v : Nat} {p : Str} {qs : List Str} (hp : NoC ',' p) (hqs : ∀ q ∈ qs, NoC ',' q) {b : Video D} :
    Video.parse v (p ++ preC ',' qs) = .ok b ↔ ∃ sh t f ps n n' pos, p = (if sh then c!"1" else c!"Video") ∧
      qs = t :: f :: ps ∧ parseI32 t = .ok n ∧ OldTime v n n' ∧ PosReads ps pos ∧ b = ⟨n', f, pos, [], sh⟩ := by
  unfold Video.parse
  rw [toRes_eq_ok]
  simp only [headerP_pieces hp (Command.NoC_hdr (h := c!"1") (by rfl)) (Command.NoC_hdr (h := c!"Video") (by rfl))
    (fun X => rfl) (fun _ _ _ _ h => commaBind_at h)]
  constructor
  · rintro ⟨r, sh, hh, h⟩
    obtain ⟨r1, n', h1, h2⟩ := bind_eq_ok.1 h
    obtain ⟨t, qs', n, rfl, h3, h4, rfl⟩ := (startTime_pieces hqs).1 h1
    obtain ⟨f, ps, pos, rfl, _, h5, rfl⟩ := (fileThen_pieces (tail_noC hqs)).1 h2
    exact ⟨sh, t, f, ps, n, n', pos, hh, rfl, h3, h4, h5, rfl⟩
  · rintro ⟨sh, t, f, ps, n, n', pos, hh, rfl, h3, h4, h5, rfl⟩
    refine ⟨[], sh, hh, bind_eq_ok.2 ⟨_, n', (startTime_pieces hqs).2 ⟨t, _, n, rfl, h3, h4, rfl⟩, ?_⟩⟩
    exact (fileThen_pieces (k := fun y => (⟨n', y.1, y.2, [], sh⟩ : Video D)) (tail_noC hqs)).2 ⟨f, ps, pos, rfl, rfl, h5, rfl⟩

omit [DecLib D] in
theorem break_iff {v : Nat} {p : Str} {qs : List Str} (hp : NoC ',' p) (hqs : ∀ q ∈ qs, NoC ',' q) {b : Break} :
    Break.parse v (p ++ preC ',' qs) = .ok b ↔ ∃ sh x y n n' m m', p = (if sh then c!"2" else c!"Break") ∧
      qs = [x, y] ∧ parseI32 x = .ok n ∧ OldTime v n n' ∧ parseI32 y = .ok m ∧ OldTime v m m' ∧ b = ⟨n', m', sh⟩ := by
  unfold Break.parse
  rw [toRes_eq_ok]
  simp only [headerP_pieces hp (Command.NoC_hdr (h := c!"2") (by rfl)) (Command.NoC_hdr (h := c!"Break") (by rfl))
    (fun X => rfl) (fun _ _ _ _ h => commaBind_at h)]
  constructor
  · rintro ⟨r, sh, hh, h⟩
    obtain ⟨r1, n', h1, h2⟩ := bind_eq_ok.1 h
    obtain ⟨t, qs', n, rfl, h3, h4, rfl⟩ := (startTime_pieces hqs).1 h1
    obtain ⟨r2, m', h5, h6⟩ := bind_eq_ok.1 h2
    obtain ⟨y, m, rfl, h7, h8, rfl⟩ := endTime_pieces.1 h5
    obtain ⟨_, rfl⟩ := ret_eq_ok.1 h6
    exact ⟨sh, t, y, n, n', m, m', hh, rfl, h3, h4, h7, h8, rfl⟩
  · rintro ⟨sh, x, y, n, n', m, m', hh, rfl, h3, h4, h7, h8, rfl⟩
    exact ⟨[], sh, hh, bind_eq_ok.2 ⟨_, n', (startTime_pieces hqs).2 ⟨x, _, n, rfl, h3, h4, rfl⟩,
      bind_eq_ok.2 ⟨_, m', endTime_pieces.2 ⟨y, m, rfl, h7, h8, rfl⟩, rfl⟩⟩⟩

theorem u8_num (s : Str) (a : UInt8) (h : parseU8 s = .ok a) : AllC isNumChar s := (parseU8_chars h).2

theorem commaRestNum {ε α : Type} {f : Str → Res ε α} (hf : ∀ s a, f s = .ok a → AllC isNumChar s) {e1 e2 : γ}
    {qs : List Str} {r : Str} {a : α} :
    preceded (context e1 comma) (context e2 (restType f)) (preC ',' qs) = .ok r a ↔ ∃ q, qs = [q] ∧ r = [] ∧ f q = .ok a := by
  rw [comma_pieces]
  unfold restType
  simp only [context_eq_ok, Command.rest_num hf]
  constructor
  · rintro ⟨q, _, rfl, rfl, rfl, h⟩; exact ⟨q, rfl, rfl, h⟩
  · rintro ⟨b, rfl, rfl, h⟩; exact ⟨b, [], rfl, rfl, rfl, h⟩

omit [DecLib D] in
theorem colourTransformation_iff {v : Nat} {p : Str} {qs : List Str} (hp : NoC ',' p) (hqs : ∀ q ∈ qs, NoC ',' q)
    {c : ColourTransformation} :
    ColourTransformation.parse v (p ++ preC ',' qs) = .ok c ↔ ∃ t x y z n n' r g b, p = c!"3" ∧
      qs = [t, x, y, z] ∧ parseI32 t = .ok n ∧ OldTime v n n' ∧ parseU8 x = .ok r ∧ parseU8 y = .ok g ∧
      parseU8 z = .ok b ∧ c = ⟨n', r, g, b⟩ := by
  unfold ColourTransformation.parse
  rw [toRes_eq_ok]
  constructor
  · rintro ⟨w, h⟩
    obtain ⟨r1, n', h1, h2⟩ := bind_eq_ok.1 h
    obtain ⟨rfl, t, qs', rfl, h1'⟩ := (hdrComma_pieces hp (Command.NoC_hdr (h := c!"3") (by rfl))).1 h1
    obtain ⟨n, h3, h4, rfl⟩ := (startTime_first (hqs t (by simp))).1 h1'
    obtain ⟨r2, r, h5, h6⟩ := bind_eq_ok.1 h2
    obtain ⟨x, q2, rfl, h7, rfl⟩ := (commaThen_pieces (tail_noC hqs)).1 h5
    obtain ⟨r3, g, h8, h9⟩ := bind_eq_ok.1 h6
    obtain ⟨y, q3, rfl, h10, rfl⟩ := (commaThen_pieces (tail_noC (tail_noC hqs))).1 h8
    obtain ⟨r4, b, h11, h12⟩ := bind_eq_ok.1 h9
    obtain ⟨z, rfl, rfl, h13⟩ := (commaRestNum u8_num).1 h11
    obtain ⟨_, rfl⟩ := ret_eq_ok.1 h12
    exact ⟨t, x, y, z, n, n', r, g, b, rfl, rfl, h3, h4, h7, h10, h13, rfl⟩
  · rintro ⟨t, x, y, z, n, n', r, g, b, rfl, rfl, h3, h4, h7, h10, h13, rfl⟩
    exact ⟨[], bind_eq_ok.2 ⟨_, n', (hdrComma_pieces hp (Command.NoC_hdr (h := c!"3") (by rfl))).2 ⟨rfl, t, _, rfl,
        (startTime_first (hqs t (by simp))).2 ⟨n, h3, h4, rfl⟩⟩,
      bind_eq_ok.2 ⟨_, r, (commaThen_pieces (tail_noC hqs)).2 ⟨x, _, rfl, h7, rfl⟩,
      bind_eq_ok.2 ⟨_, g, (commaThen_pieces (tail_noC (tail_noC hqs))).2 ⟨y, _, rfl, h10, rfl⟩,
      bind_eq_ok.2 ⟨_, b, (commaRestNum u8_num).2 ⟨z, rfl, rfl, h13⟩, rfl⟩⟩⟩⟩⟩

theorem spriteLegacy_iff {h p : Str} (hh : lacks ',' h = true) {qs : List Str} (hp : NoC ',' p) (hqs : ∀ q ∈ qs, NoC ',' q)
    {x : SpriteLegacy D} :
    SpriteLegacy.parse h (p ++ preC ',' qs) = .ok x ↔ ∃ l o f ps la og pos, p = h ∧ qs = l :: o :: f :: ps ∧
      CodeReads legacyLayers l la ∧ CodeReads legacyOrigins o og ∧ PosReads ps pos ∧ x = ⟨la, og, f, pos, []⟩ := by
  unfold SpriteLegacy.parse
  rw [toRes_eq_ok]
  simp only [hdrComma_pieces hp (Command.NoC_hdr hh), bind_eq_ok (p := context _ _), context_eq_ok]
  constructor
  · rintro ⟨r, rfl, l, qs', rfl, r1, la, h1, h2⟩
    obtain ⟨h3, rfl⟩ := (commaFieldType_pieces (hqs l (by simp))).1 h1
    obtain ⟨r2, og, h4, h5⟩ := bind_eq_ok.1 h2
    obtain ⟨o, q2, rfl, h6, rfl⟩ := (commaThen_pieces (tail_noC hqs)).1 h4
    obtain ⟨f, ps, pos, rfl, _, h7, rfl⟩ := (fileThen_pieces (tail_noC (tail_noC hqs))).1 h5
    exact ⟨l, o, f, ps, la, og, pos, rfl, rfl, (parseRepr_iff layerLegacy_code).1 h3,
      (parseRepr_iff originLegacy_code).1 h6, h7, rfl⟩
  · rintro ⟨l, o, f, ps, la, og, pos, rfl, rfl, h3, h6, h7, rfl⟩
    refine ⟨[], rfl, l, _, rfl, _, la,
      (commaFieldType_pieces (hqs l (by simp))).2 ⟨(parseRepr_iff layerLegacy_code).2 h3, rfl⟩, ?_⟩
    refine bind_eq_ok.2 ⟨_, og, (commaThen_pieces (tail_noC hqs)).2 ⟨o, _, rfl, (parseRepr_iff originLegacy_code).2 h6, rfl⟩, ?_⟩
    exact (fileThen_pieces (k := fun y => (⟨la, og, y.1, y.2, []⟩ : SpriteLegacy D)) (tail_noC (tail_noC hqs))).2
      ⟨f, ps, pos, rfl, rfl, h7, rfl⟩

theorem vol_num (s : Str) (a : Volume) (h : Volume.parse s = .ok a) : AllC isNumChar s :=
  u8_num _ _ (volume_iff.1 h).1

theorem fileField_pieces {e : γ} {qs : List Str} (hqs : ∀ q ∈ qs, NoC ',' q) {r : Str} {f : Str} :
    preceded (context e comma) commaField (preC ',' qs) = .ok r f ↔ ∃ qs', qs = f :: qs' ∧ r = preC ',' qs' := by
  rw [comma_pieces]
  constructor
  · rintro ⟨q, qs', rfl, h⟩
    rw [commaField_pieces (hqs q (by simp))] at h
    cases h; exact ⟨qs', rfl, rfl⟩
  · rintro ⟨qs', rfl, rfl⟩
    exact ⟨f, qs', rfl, commaField_pieces (hqs f (by simp))⟩

theorem sampleLegacy_iff {p : Str} {qs : List Str} (hp : NoC ',' p) (hqs : ∀ q ∈ qs, NoC ',' q)
    {x : SampleLegacy D} :
    SampleLegacy.parse (p ++ preC ',' qs) = .ok x ↔ ∃ t l f ps la vol, p = c!"6" ∧ qs = t :: l :: f :: ps ∧
      CodeReads legacyLayers l la ∧ VolTail ps vol ∧ x = ⟨.ofStr t, la, f, vol, []⟩ := by
  unfold SampleLegacy.parse
  rw [toRes_eq_ok]
  simp only [hdrComma_pieces hp (Command.NoC_hdr (h := c!"6") (by rfl)), bind_eq_ok (p := context _ _), context_eq_ok]
  constructor
  · rintro ⟨r, rfl, t, qs', rfl, r1, ti, h1, h2⟩
    obtain ⟨h3, rfl⟩ := (commaFieldType_pieces (hqs t (by simp))).1 h1
    have h3 := Command.decParse_ok.1 h3
    subst h3
    obtain ⟨r2, la, h4, h5⟩ := bind_eq_ok.1 h2
    obtain ⟨l, q2, rfl, h6, rfl⟩ := (commaThen_pieces (tail_noC hqs)).1 h4
    obtain ⟨r3, f, h7, h8⟩ := bind_eq_ok.1 h5
    obtain ⟨ps, rfl, rfl⟩ := (fileField_pieces (tail_noC (tail_noC hqs))).1 h7
    obtain ⟨r4, vol, h9, h10⟩ := bind_eq_ok.1 h8
    obtain ⟨_, rfl⟩ := ret_eq_ok.1 h10
    refine ⟨t, l, f, ps, la, vol, rfl, rfl, (parseRepr_iff layerLegacy_code).1 h6, ?_, rfl⟩
    obtain ⟨y, hy, h11⟩ := alt_mem h9
    simp only [List.mem_cons, List.not_mem_nil, or_false] at hy
    rcases hy with rfl | rfl
    · obtain ⟨_, g1, rfl⟩ := map_eq_ok.1 h11
      obtain ⟨g2, _, _⟩ := eof_eq_ok.1 g1
      rw [preC_eq_nil.1 g2]; exact .none
    · obtain ⟨w, g1, rfl⟩ := map_eq_ok.1 h11
      obtain ⟨z, rfl, _, g2⟩ := (commaRestNum vol_num).1 g1
      exact .some (volume_iff.1 g2)
  · rintro ⟨t, l, f, ps, la, vol, rfl, rfl, h6, h7, rfl⟩
    refine ⟨[], rfl, t, _, rfl, _, .ofStr t, (commaFieldType_pieces (hqs t (by simp))).2 ⟨rfl, rfl⟩, ?_⟩
    refine bind_eq_ok.2 ⟨_, la, (commaThen_pieces (tail_noC hqs)).2 ⟨l, _, rfl, (parseRepr_iff layerLegacy_code).2 h6, rfl⟩, ?_⟩
    refine bind_eq_ok.2 ⟨_, f, (fileField_pieces (tail_noC (tail_noC hqs))).2 ⟨ps, rfl, rfl⟩, ?_⟩
    refine bind_eq_ok.2 ⟨[], vol, ?_, rfl⟩
    cases h7 with
    | none => exact alt_cons_ok rfl
    | some h =>
      refine alt_cons_err (map_err (by rw [preC_cons]; exact ⟨_, rfl⟩)) (alt_cons_ok (map_eq_ok.2 ⟨_, ?_, rfl⟩))
      exact (commaRestNum vol_num).2 ⟨_, rfl, rfl, volume_iff.2 h⟩

theorem audioSample_iff {p : Str} {qs : List Str} (hp : NoC ',' p) (hqs : ∀ q ∈ qs, NoC ',' q)
    {x : AudioSample} :
    AudioSample.parse (p ++ preC ',' qs) = .ok x ↔ ∃ t l f ps n la vol, p = c!"Sample" ∧ qs = t :: l :: f :: ps ∧
      parseI32 t = .ok n ∧ CodeReads audioLayers l la ∧ VolOr100 ps vol ∧ x = ⟨n, la, f, vol⟩ := by
  unfold AudioSample.parse
  have code : ∀ {e1 e2 : NEErr} {s r : Str} {a : AudioLayer}, context e1 (mapOpt (context e2 (commaFieldType parseUsize)) AudioLayer.ofCode) s = .ok r a ↔
      (commaFieldType (parseRepr AudioLayer.ofCode) : Parser NEErr AudioLayer) s = .ok r a := by
    intro e1 e2 s r a
    rw [context_eq_ok, mapOpt_eq_ok]
    simp only [context_eq_ok, commaFieldType_eq_ok]
    constructor
    · rintro ⟨n, ⟨t, h1, h2, h3, h4⟩, h5⟩
      exact ⟨t, h1, h2, h3, by unfold parseRepr; rw [h4]; simp only [h5]⟩
    · rintro ⟨t, h1, h2, h3, h4⟩
      obtain ⟨n, h5, h6⟩ := (parseRepr_iff audioLayer_code).1 h4
      exact ⟨n, ⟨t, h1, h2, h3, h5⟩, by rw [audioLayer_code, h6]⟩
  have code' : ∀ {e1 e2 e3 : NEErr} {s r : Str} {a : AudioLayer},
      preceded (context e1 comma) (context e2 (mapOpt (context e3 (commaFieldType parseUsize)) AudioLayer.ofCode)) s = .ok r a ↔
      preceded (context e1 comma) (context e2 (commaFieldType (parseRepr AudioLayer.ofCode))) s = .ok r a := by
    intro e1 e2 e3 s r a
    simp only [preceded_eq_ok, code]
    simp only [context_eq_ok]
  split
  · rename_i hs
    constructor
    · intro h; cases h
    · rintro ⟨_, _, _, _, _, _, _, rfl, rfl, _⟩; simp at hs
  · rw [toRes_eq_ok]
    constructor
    · rintro ⟨w, h⟩
      obtain ⟨r1, n, h1, h2⟩ := bind_eq_ok.1 h
      obtain ⟨rfl, t, qs', rfl, h1'⟩ := (hdrComma_pieces hp (Command.NoC_hdr (h := c!"Sample") (by rfl))).1 h1
      rw [context_eq_ok] at h1'
      obtain ⟨h3, rfl⟩ := (commaFieldType_pieces (hqs t (by simp))).1 h1'
      obtain ⟨r2, la, h4, h5⟩ := bind_eq_ok.1 h2
      obtain ⟨l, q2, rfl, h6, rfl⟩ := (commaThen_pieces (tail_noC hqs)).1 (code'.1 h4)
      obtain ⟨r3, f, h7, h8⟩ := bind_eq_ok.1 h5
      obtain ⟨ps, rfl, rfl⟩ := (fileField_pieces (tail_noC (tail_noC hqs))).1 h7
      obtain ⟨r4, vol, h9, h10⟩ := bind_eq_ok.1 h8
      obtain ⟨_, rfl⟩ := ret_eq_ok.1 h10
      refine ⟨t, l, f, ps, n, la, vol, rfl, rfl, h3, (parseRepr_iff audioLayer_code).1 h6, ?_, rfl⟩
      obtain ⟨y, hy, h11⟩ := alt_mem h9
      simp only [List.mem_cons, List.not_mem_nil, or_false] at hy
      rcases hy with rfl | rfl
      · obtain ⟨_, g1, rfl⟩ := map_eq_ok.1 h11
        obtain ⟨g2, _, _⟩ := eof_eq_ok.1 g1
        rw [preC_eq_nil.1 g2]; exact .none
      · obtain ⟨z, more, rfl, g2, _⟩ := (commaThen_pieces (tail_noC (tail_noC (tail_noC hqs)))).1 h11
        exact .some (volume_iff.1 g2)
    · rintro ⟨t, l, f, ps, n, la, vol, rfl, rfl, h3, h6, h7, rfl⟩
      have hv : ∃ r, alt [eof.map fun _ => Volume.default,
          preceded (context NEErr.missingVolume comma) (context .invalidVolume (commaFieldType Volume.parse))] (preC ',' ps) = .ok r vol := by
        cases h7 with
        | none => exact ⟨_, alt_cons_ok rfl⟩
        | @some z w more h =>
          refine ⟨preC ',' more, alt_cons_err (map_err (by rw [preC_cons]; exact ⟨_, rfl⟩)) (alt_cons_ok ?_)⟩
          exact (commaThen_pieces (tail_noC (tail_noC (tail_noC hqs)))).2 ⟨_, _, rfl, volume_iff.2 h, rfl⟩
      obtain ⟨r, hv⟩ := hv
      refine ⟨r, bind_eq_ok.2 ⟨preC ',' (l :: f :: ps), n,
        (hdrComma_pieces hp (Command.NoC_hdr (h := c!"Sample") (by rfl))).2 ⟨rfl, t, _, rfl, ?_⟩, ?_⟩⟩
      · exact (context_eq_ok).2 ((commaFieldType_pieces (hqs t (by simp))).2 ⟨h3, rfl⟩)
      refine bind_eq_ok.2 ⟨_, la, code'.2 ((commaThen_pieces (tail_noC hqs)).2 ⟨l, _, rfl, (parseRepr_iff audioLayer_code).2 h6, rfl⟩), ?_⟩
      refine bind_eq_ok.2 ⟨_, f, (fileField_pieces (tail_noC (tail_noC hqs))).2 ⟨ps, rfl, rfl⟩, ?_⟩
      exact bind_eq_ok.2 ⟨r, vol, hv, rfl⟩

end Ev

namespace SB.Object
open Ev (tail_noC fileField_pieces)

omit [DecLib D] in
theorem head_pieces {qs : List Str} (hqs : ∀ q ∈ qs, NoC ',' q) {r : Str} {x : Layer × Origin × FilePath} :
    headP (preC ',' qs) = .ok r x ↔ ∃ o qs', qs = x.1.shw :: o :: x.2.2 :: qs' ∧ OriginReads o x.2.1 ∧ r = preC ',' qs' := by
  unfold headP
  constructor
  · intro h
    obtain ⟨r1, l, h1, h2⟩ := bind_eq_ok.1 h
    obtain ⟨a, q1, rfl, h3, rfl⟩ := (commaThen_pieces hqs).1 h1
    have h3 := layer_iff.1 h3
    subst h3
    obtain ⟨r2, o, h4, h5⟩ := bind_eq_ok.1 h2
    obtain ⟨b, q2, rfl, h6, rfl⟩ := (commaThen_pieces (tail_noC hqs)).1 h4
    obtain ⟨r3, p, h7, h8⟩ := bind_eq_ok.1 h5
    obtain ⟨q3, rfl, rfl⟩ := (fileField_pieces (tail_noC (tail_noC hqs))).1 h7
    obtain ⟨rfl, rfl⟩ := ret_eq_ok.1 h8
    exact ⟨b, q3, rfl, origin_iff.1 h6, rfl⟩
  · obtain ⟨l, o, p⟩ := x
    rintro ⟨b, qs', rfl, h6, rfl⟩
    exact bind_eq_ok.2 ⟨_, l, (commaThen_pieces hqs).2 ⟨_, _, rfl, layer_iff.2 rfl, rfl⟩,
      bind_eq_ok.2 ⟨_, o, (commaThen_pieces (tail_noC hqs)).2 ⟨b, _, rfl, origin_iff.2 h6, rfl⟩,
      bind_eq_ok.2 ⟨_, p, (fileField_pieces (tail_noC (tail_noC hqs))).2 ⟨qs', rfl, rfl⟩, rfl⟩⟩⟩

theorem position_pieces {qs : List Str} (hqs : ∀ q ∈ qs, NoC ',' q) {r : Str} {x : Position D} :
    positionP (preC ',' qs) = .ok r x ↔ ∃ a b qs', qs = a :: b :: qs' ∧ x = ⟨.ofStr a, .ofStr b⟩ ∧ r = preC ',' qs' := by
  unfold positionP
  constructor
  · intro h
    obtain ⟨r1, l, h1, h2⟩ := bind_eq_ok.1 h
    obtain ⟨a, q1, rfl, h3, rfl⟩ := (commaThen_pieces hqs).1 h1
    obtain ⟨r2, o, h4, h5⟩ := bind_eq_ok.1 h2
    obtain ⟨b, q2, rfl, h6, rfl⟩ := (commaThen_pieces (tail_noC hqs)).1 h4
    obtain ⟨rfl, rfl⟩ := ret_eq_ok.1 h5
    rw [Command.decParse_ok.1 h3, Command.decParse_ok.1 h6]
    exact ⟨a, b, q2, rfl, rfl, rfl⟩
  · rintro ⟨a, b, qs', rfl, rfl, rfl⟩
    exact bind_eq_ok.2 ⟨_, _, (commaThen_pieces hqs).2 ⟨_, _, rfl, rfl, rfl⟩,
      bind_eq_ok.2 ⟨_, _, (commaThen_pieces (tail_noC hqs)).2 ⟨b, _, rfl, rfl, rfl⟩, rfl⟩⟩

omit [DecLib D] in
theorem headBind_at {α : Type} {f : Layer × Origin × FilePath → Parser ObjErr α} {s r : Str} {x : α}
    (h : headP.bind f s = .ok r x) : AtComma s := by
  obtain ⟨r1, a, h1, _⟩ := bind_eq_ok.1 h
  exact Ev.commaBind_at h1

theorem sprite_pieces {p : Str} {qs : List Str} (hp : NoC ',' p) (hqs : ∀ q ∈ qs, NoC ',' q) {x : Object D} {r : Str} :
    spriteP (p ++ preC ',' qs) = .ok r x ↔ ∃ (l : Layer) (o f a b : Str) (og : Origin) (more : List Str), p = c!"Sprite" ∧
      qs = l.shw :: o :: f :: a :: b :: more ∧ OriginReads o og ∧ x = ⟨l, og, ⟨.ofStr a, .ofStr b⟩, .sprite f, []⟩ ∧
      r = preC ',' more := by
  unfold spriteP
  rw [Command.header_pieces hp (Command.NoC_hdr (h := c!"Sprite") (by rfl))]
  · rw [map_eq_ok]
    simp only [cut_eq_ok]
    constructor
    · rintro ⟨rfl, ⟨l, og, f, pos⟩, h1, rfl⟩
      obtain ⟨r1, ⟨l', og', f'⟩, h2, h3⟩ := bind_eq_ok.1 h1
      obtain ⟨o, q1, rfl, h4, rfl⟩ := (head_pieces hqs).1 h2
      obtain ⟨r2, pos', h5, h6⟩ := bind_eq_ok.1 h3
      obtain ⟨a, b, more, rfl, rfl, rfl⟩ := (position_pieces (tail_noC (tail_noC (tail_noC hqs)))).1 h5
      obtain ⟨rfl, h7⟩ := ret_eq_ok.1 h6
      cases h7
      exact ⟨l', o, f', a, b, og', more, rfl, rfl, h4, rfl, rfl⟩
    · rintro ⟨l, o, f, a, b, og, more, rfl, rfl, h4, rfl, rfl⟩
      refine ⟨rfl, (l, og, f, _), bind_eq_ok.2 ⟨_, (l, og, f), (head_pieces hqs).2 ⟨o, _, rfl, h4, rfl⟩, ?_⟩, rfl⟩
      exact bind_eq_ok.2 ⟨_, _, (position_pieces (tail_noC (tail_noC (tail_noC hqs)))).2 ⟨a, b, more, rfl, rfl, rfl⟩, rfl⟩
  · intro s r a h
    obtain ⟨_, h, _⟩ := map_eq_ok.1 h
    rw [cut_eq_ok] at h
    exact headBind_at h

omit [DecLib D] in
theorem loopType_pieces {qs : List Str} {r : Str} {l : LoopType} :
    loopTypeP (preC ',' qs) = .ok r l ↔ r = [] ∧ LoopTail qs l := by
  unfold loopTypeP
  have lname : ∀ l : LoopType, NoC ',' l.shw := by intro l; cases l <;> exact Command.NoC_hdr (by rfl)
  constructor
  · intro h
    obtain ⟨y, hy, h⟩ := alt_mem h
    simp only [List.mem_cons, List.not_mem_nil, or_false] at hy
    rcases hy with rfl | rfl
    · obtain ⟨q, qs', rfl, h1⟩ := comma_pieces.1 h
      rw [context_eq_ok] at h1
      obtain ⟨t, h2, h3⟩ := mapRes_eq_ok.1 h1
      obtain ⟨rfl, rfl⟩ := rest_eq_ok.1 h2
      have h4 := loopType_iff.1 h3
      cases qs' with
      | nil => rw [preC_nil, List.append_nil] at h4; subst h4; exact ⟨rfl, .some l⟩
      | cons q' qs' =>
        exfalso
        have := lname l ',' (by rw [← h4, preC_cons]; simp)
        simp at this
    · obtain ⟨_, h1, h2⟩ := map_eq_ok.1 h
      obtain ⟨rfl, rfl, _⟩ := (nothing_preC (by decide)).1 h1
      rw [← h2]; exact ⟨rfl, .none⟩
  · rintro ⟨rfl, h⟩
    cases h with
    | none => exact alt_cons_err ⟨_, rfl⟩ (alt_cons_ok rfl)
    | some =>
      refine alt_cons_ok (comma_pieces.2 ⟨_, [], rfl, ?_⟩)
      rw [context_eq_ok, preC_nil, List.append_nil]
      exact mapRes_eq_ok.2 ⟨_, rest_eq_ok.2 ⟨rfl, rfl⟩, loopType_iff.2 rfl⟩

theorem decP_iff {s : Str} {d : D} : (decP (D := D) s) = .ok d ↔ DecLib.parse s = some d := by
  unfold decP
  cases (DecLib.parse s : Option D) <;> simp

theorem animation_pieces {p : Str} {qs : List Str} (hp : NoC ',' p) (hqs : ∀ q ∈ qs, NoC ',' q) {x : Object D} {r : Str} :
    animationP (p ++ preC ',' qs) = .ok r x ↔ ∃ (l : Layer) (o f a b c d : Str) (ps : List Str) (og : Origin) (n : UInt32) (delay : D) (lt : LoopType),
      p = c!"Animation" ∧ qs = l.shw :: o :: f :: a :: b :: c :: d :: ps ∧ OriginReads o og ∧ parseU32 c = .ok n ∧
      DecLib.parse d = some delay ∧ LoopTail ps lt ∧
      x = ⟨l, og, ⟨.ofStr a, .ofStr b⟩, .animation n delay lt f, []⟩ ∧ r = [] := by
  unfold animationP
  rw [map_eq_ok]
  constructor
  · rintro ⟨⟨l, og, f, pos, n, d, lt⟩, h, rfl⟩
    rw [Command.header_pieces hp (Command.NoC_hdr (h := c!"Animation") (by rfl))
      (fun s r a h => by rw [cut_eq_ok] at h; exact headBind_at h), cut_eq_ok] at h
    obtain ⟨rfl, h1⟩ := h
    obtain ⟨r1, ⟨l', og', f'⟩, h2, h3⟩ := bind_eq_ok.1 h1
    obtain ⟨o, q1, rfl, h4, rfl⟩ := (head_pieces hqs).1 h2
    obtain ⟨r2, pos', h5, h6⟩ := bind_eq_ok.1 h3
    have hq1 := tail_noC (tail_noC (tail_noC hqs))
    obtain ⟨a, b, q2, rfl, rfl, rfl⟩ := (position_pieces hq1).1 h5
    have hq2 := tail_noC (tail_noC hq1)
    obtain ⟨r3, n', h7, h8⟩ := bind_eq_ok.1 h6
    obtain ⟨c, q3, rfl, h9, rfl⟩ := (commaThen_pieces hq2).1 h7
    obtain ⟨r4, d', h10, h11⟩ := bind_eq_ok.1 h8
    obtain ⟨ds, q4, rfl, h12, rfl⟩ := (commaThen_pieces (tail_noC hq2)).1 h10
    obtain ⟨r5, lt', h13, h14⟩ := bind_eq_ok.1 h11
    obtain ⟨rfl, h15⟩ := loopType_pieces.1 h13
    obtain ⟨rfl, h16⟩ := ret_eq_ok.1 h14
    cases h16
    exact ⟨l, o, f, a, b, c, ds, q4, og, n, d, lt, rfl, rfl, h4, h9, decP_iff.1 h12, h15, rfl, rfl⟩
  · rintro ⟨l, o, f, a, b, c, ds, q4, og, n, d, lt, rfl, rfl, h4, h9, h12, h15, rfl, rfl⟩
    have hq1 := tail_noC (tail_noC (tail_noC hqs))
    have hq2 := tail_noC (tail_noC hq1)
    refine ⟨(l, og, f, ⟨.ofStr a, .ofStr b⟩, n, d, lt), ?_, rfl⟩
    rw [Command.header_pieces hp (Command.NoC_hdr (h := c!"Animation") (by rfl))
      (fun s r a h => by rw [cut_eq_ok] at h; exact headBind_at h), cut_eq_ok]
    refine ⟨rfl, ?_⟩
    refine bind_eq_ok.2 ⟨_, (l, og, f), (head_pieces hqs).2 ⟨o, _, rfl, h4, rfl⟩, ?_⟩
    refine bind_eq_ok.2 ⟨_, _, (position_pieces hq1).2 ⟨a, b, _, rfl, rfl, rfl⟩, ?_⟩
    refine bind_eq_ok.2 ⟨_, n, (commaThen_pieces hq2).2 ⟨c, _, rfl, h9, rfl⟩, ?_⟩
    refine bind_eq_ok.2 ⟨_, d, (commaThen_pieces (tail_noC hq2)).2 ⟨ds, _, rfl, decP_iff.2 h12, rfl⟩, ?_⟩
    exact bind_eq_ok.2 ⟨[], lt, loopType_pieces.2 ⟨rfl, h15⟩, rfl⟩

theorem object_iff {p : Str} {qs : List Str} (hp : NoC ',' p) (hqs : ∀ q ∈ qs, NoC ',' q) {x : Object D} {v : Nat} :
    Object.parse (p ++ preC ',' qs) = .ok x ↔ EvReads v (p :: qs) (.object x) := by
  unfold Object.parse objectP
  rw [toRes_eq_ok]
  constructor
  · rintro ⟨r, h⟩
    obtain ⟨y, hy, h⟩ := alt_mem h
    simp only [List.mem_cons, List.not_mem_nil, or_false] at hy
    rcases hy with rfl | rfl | rfl
    · obtain ⟨l, o, f, a, b, og, more, rfl, rfl, h4, rfl, _⟩ := (sprite_pieces hp hqs).1 h
      exact .sprite h4
    · obtain ⟨l, o, f, a, b, c, ds, q4, og, n, d, lt, rfl, rfl, h4, h9, h12, h15, rfl, _⟩ := (animation_pieces hp hqs).1 h
      exact .animation h4 h9 h12 h15
    · rw [context_eq_ok] at h; cases h
  · intro h
    cases h with
    | @sprite l o f a b more og h4 =>
      exact ⟨_, alt_cons_ok ((sprite_pieces hp hqs).2 ⟨l, o, f, a, b, og, more, rfl, rfl, h4, rfl, rfl⟩)⟩
    | @animation l o f a b c ds q4 og n d lt h4 h9 h12 h15 =>
      refine ⟨[], alt_cons_err (preceded_err (tag_err rfl)) (alt_cons_ok ?_)⟩
      exact (animation_pieces hp hqs).2 ⟨l, o, f, a, b, c, ds, q4, og, n, d, lt, rfl, rfl, h4, h9, h12, h15, rfl, rfl⟩

/-- Lines with another first piece are not objects. -/
theorem object_unknown {p : Str} {qs : List Str}
    (h1 : (c!"Sprite").isPrefixOf (p ++ preC ',' qs) = false) (h2 : (c!"Animation").isPrefixOf (p ++ preC ',' qs) = false) :
    (Object.parse (p ++ preC ',' qs) : Res ObjErr (Object D)) = .err .unknownObjectType := by
  unfold Object.parse objectP
  have e1 : ∃ e, (spriteP : Parser ObjErr (Object D)) (p ++ preC ',' qs) = .error e := preceded_err (tag_err h1)
  have e2 : ∃ e, (animationP : Parser ObjErr (Object D)) (p ++ preC ',' qs) = .error e := map_err (preceded_err (tag_err h2))
  obtain ⟨e1, e1'⟩ := e1
  obtain ⟨e2, e2'⟩ := e2
  simp only [alt, altAux, e1', e2', context, Parser.fail, PRes.toRes, List.cons_append, List.nil_append, firstCtx]

end SB.Object

namespace Ev

theorem kind_head {p : Str} {k : Kind} (qs : List Str)
    (h : (p = c!"0" ∧ k = .background) ∨ ((p = c!"1" ∨ p = c!"Video") ∧ k = .video) ∨
      ((p = c!"2" ∨ p = c!"Break") ∧ k = .break_) ∨ (p = c!"3" ∧ k = .colourTransformation) ∨
      (p = c!"4" ∧ k = .spriteLegacy) ∨ (p = c!"5" ∧ k = .animationLegacy) ∨ (p = c!"6" ∧ k = .sampleLegacy) ∨
      ((p = c!"Sprite" ∨ p = c!"Animation" ∨ p = c!"Sample") ∧ k = .other)) :
    kindOf (p ++ preC ',' qs) = some k := by
  cases qs with
  | nil =>
    rw [preC_nil]
    rcases h with ⟨rfl, rfl⟩ | ⟨rfl | rfl, rfl⟩ | ⟨rfl | rfl, rfl⟩ | ⟨rfl, rfl⟩ | ⟨rfl, rfl⟩ | ⟨rfl, rfl⟩ | ⟨rfl, rfl⟩ | ⟨rfl | rfl | rfl, rfl⟩ <;> rfl
  | cons q qs =>
    rw [preC_cons]
    rcases h with ⟨rfl, rfl⟩ | ⟨rfl | rfl, rfl⟩ | ⟨rfl | rfl, rfl⟩ | ⟨rfl, rfl⟩ | ⟨rfl, rfl⟩ | ⟨rfl, rfl⟩ | ⟨rfl, rfl⟩ | ⟨rfl | rfl | rfl, rfl⟩ <;> rfl

theorem mapEv_ok {ε α β δ : Type} {f : α → β} {g : ε → δ} {x : Res ε α} {b : β} :
    mapEv f g x = .ok b ↔ ∃ a, x = .ok a ∧ f a = b := by
  cases x <;> simp [mapEv]

/-- The event parser accepts exactly the grammar. -/
theorem event_reads {v : Nat} {s : Str} {e : Event D} : parseEvent v s = .ok e ↔ EvReads v (splitOnC ',' s) e := by
  obtain ⟨p, qs, hs⟩ : ∃ p qs, splitOnC ',' s = p :: qs := by
    cases h : splitOnC ',' s with
    | nil => exact absurd h (splitOnC_ne_nil _ _)
    | cons p qs => exact ⟨p, qs, rfl⟩
  obtain ⟨rfl, hp, hqs⟩ := splitOnC_iff.1 hs
  rw [hs]
  constructor
  · intro h
    unfold parseEvent at h
    split at h
    · cases h
    · obtain ⟨b, h1, rfl⟩ := mapEv_ok.1 h
      obtain ⟨t, f, ps, n, pos, rfl, rfl, h2, h3, rfl⟩ := (background_iff hp hqs).1 h1
      exact .background h2 h3
    · obtain ⟨b, h1, rfl⟩ := mapEv_ok.1 h
      obtain ⟨sh, t, f, ps, n, n', pos, hh, rfl, h2, h3, h4, rfl⟩ := (video_iff hp hqs).1 h1
      exact .video hh h2 h3 h4
    · obtain ⟨b, h1, rfl⟩ := mapEv_ok.1 h
      obtain ⟨sh, x, y, n, n', m, m', hh, rfl, h2, h3, h4, h5, rfl⟩ := (break_iff hp hqs).1 h1
      exact .break_ hh h2 h3 h4 h5
    · obtain ⟨b, h1, rfl⟩ := mapEv_ok.1 h
      obtain ⟨t, x, y, z, n, n', r, g, b, rfl, rfl, h2, h3, h4, h5, h6, rfl⟩ := (colourTransformation_iff hp hqs).1 h1
      exact .colourTransformation h2 h3 h4 h5 h6
    · obtain ⟨b, h1, rfl⟩ := mapEv_ok.1 h
      obtain ⟨l, o, f, ps, la, og, pos, rfl, rfl, h2, h3, h4, rfl⟩ := (spriteLegacy_iff (by rfl) hp hqs).1 h1
      exact .spriteLegacy h2 h3 h4
    · obtain ⟨b, h1, rfl⟩ := mapEv_ok.1 h
      obtain ⟨l, o, f, ps, la, og, pos, rfl, rfl, h2, h3, h4, rfl⟩ := (spriteLegacy_iff (by rfl) hp hqs).1 h1
      exact .animationLegacy h2 h3 h4
    · obtain ⟨b, h1, rfl⟩ := mapEv_ok.1 h
      obtain ⟨t, l, f, ps, la, vol, rfl, rfl, h2, h3, rfl⟩ := (sampleLegacy_iff hp hqs).1 h1
      exact .sampleLegacy h2 h3
    · unfold parseOther at h
      split at h
      · rename_i o ho
        cases h
        exact (SB.Object.object_iff hp hqs).1 ho
      · split at h
        · rename_i a ha
          cases h
          obtain ⟨t, l, f, ps, n, la, vol, rfl, rfl, h2, h3, h4, rfl⟩ := (audioSample_iff hp hqs).1 ha
          exact .audioSample h2 h3 h4
        · cases h
        · cases h
        · cases h
      · cases h
      · cases h
  · intro h
    unfold parseEvent
    cases h with
    | background h2 h3 =>
      rw [kind_head _ (.inl ⟨rfl, rfl⟩)]
      exact mapEv_ok.2 ⟨_, (background_iff hp hqs).2 ⟨_, _, _, _, _, rfl, rfl, h2, h3, rfl⟩, rfl⟩
    | @video _ t f ps n n' pos sh hh h2 h3 h4 =>
      rw [kind_head _ (.inr (.inl ⟨by (cases sh; exact .inr hh; exact .inl hh), rfl⟩))]
      exact mapEv_ok.2 ⟨_, (video_iff hp hqs).2 ⟨_, _, _, _, _, _, _, hh, rfl, h2, h3, h4, rfl⟩, rfl⟩
    | @break_ _ x y n n' m m' sh hh h2 h3 h4 h5 =>
      rw [kind_head _ (.inr (.inr (.inl ⟨by (cases sh; exact .inr hh; exact .inl hh), rfl⟩)))]
      exact mapEv_ok.2 ⟨_, (break_iff hp hqs).2 ⟨_, _, _, _, _, _, _, hh, rfl, h2, h3, h4, h5, rfl⟩, rfl⟩
    | colourTransformation h2 h3 h4 h5 h6 =>
      rw [kind_head _ (.inr (.inr (.inr (.inl ⟨rfl, rfl⟩))))]
      exact mapEv_ok.2 ⟨_, (colourTransformation_iff hp hqs).2 ⟨_, _, _, _, _, _, _, _, _, rfl, rfl, h2, h3, h4, h5, h6, rfl⟩, rfl⟩
    | spriteLegacy h2 h3 h4 =>
      rw [kind_head _ (.inr (.inr (.inr (.inr (.inl ⟨rfl, rfl⟩)))))]
      exact mapEv_ok.2 ⟨_, (spriteLegacy_iff (by rfl) hp hqs).2 ⟨_, _, _, _, _, _, _, rfl, rfl, h2, h3, h4, rfl⟩, rfl⟩
    | animationLegacy h2 h3 h4 =>
      rw [kind_head _ (.inr (.inr (.inr (.inr (.inr (.inl ⟨rfl, rfl⟩))))))]
      exact mapEv_ok.2 ⟨_, (spriteLegacy_iff (by rfl) hp hqs).2 ⟨_, _, _, _, _, _, _, rfl, rfl, h2, h3, h4, rfl⟩, rfl⟩
    | sampleLegacy h2 h3 =>
      rw [kind_head _ (.inr (.inr (.inr (.inr (.inr (.inr (.inl ⟨rfl, rfl⟩)))))))]
      exact mapEv_ok.2 ⟨_, (sampleLegacy_iff hp hqs).2 ⟨_, _, _, _, _, _, rfl, rfl, h2, h3, rfl⟩, rfl⟩
    | sprite h2 =>
      rw [kind_head _ (.inr (.inr (.inr (.inr (.inr (.inr (.inr ⟨.inl rfl, rfl⟩)))))))]
      simp only [parseOther]
      rw [(SB.Object.object_iff hp hqs (v := v)).2 (.sprite h2)]
    | animation h2 h3 h4 h5 =>
      rw [kind_head _ (.inr (.inr (.inr (.inr (.inr (.inr (.inr ⟨.inr (.inl rfl), rfl⟩)))))))]
      simp only [parseOther]
      rw [(SB.Object.object_iff hp hqs (v := v)).2 (.animation h2 h3 h4 h5)]
    | audioSample h2 h3 h4 =>
      rw [kind_head _ (.inr (.inr (.inr (.inr (.inr (.inr (.inr ⟨.inr (.inr rfl), rfl⟩)))))))]
      simp only [parseOther]
      rw [SB.Object.object_unknown (by rfl) (by rfl)]
      simp only [(audioSample_iff hp hqs).2 ⟨_, _, _, _, _, _, _, rfl, rfl, h2, h3, h4, rfl⟩]

end Ev
end Osu
