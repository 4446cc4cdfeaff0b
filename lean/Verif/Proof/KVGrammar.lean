/-
Key/value sections: exact outcome for every text.
-/
import Verif.Proof.KV
import Verif.Proof.Cmds

namespace Osu
open Parser

/-- The entry as the parser returns it. -/
def toFieldLine (e : KVLine × Str) : FieldLine := ⟨e.1.key, e.1.ws, e.1.value, e.2⟩

theorem fieldLine_iff {s r : Str} {f : FieldLine} : fieldLine s = .ok r f ↔
    ∃ (l : KVLine) (gap : Str), f = toFieldLine (l, gap) ∧ s = l.text ++ (gap ++ r) ∧
      AllC (fun c => !(c == ':' || c == '\n')) l.key ∧ AllC isSpace l.ws ∧
      AllC (fun c => !(c == '\r' || c == '\n')) l.value ∧ HeadNot isSpace l.value ∧
      AllC isMultispace gap ∧ HeadNot (fun c => !(c == '\r' || c == '\n')) gap ∧ HeadNot isMultispace r ∧
      (gap = [] → r = []) := by
  unfold fieldLine takeTill space0 multispace0
  simp only [bind_eq_ok, ret_eq_ok, terminated_eq_ok, char_eq_ok, takeWhile_eq_ok]
  constructor
  · rintro ⟨r1, k, ⟨_, _, ⟨rfl, hk, -⟩, rfl, rfl⟩, r2, w, ⟨rfl, hw, hwn⟩, r3, val, ⟨rfl, hv, hvn⟩, r4, gap, ⟨rfl, hg, hgn⟩, rfl, rfl⟩
    refine ⟨⟨k, w, val⟩, gap, rfl, by simp [KVLine.text], hk, hw, hv, ?_, hg, ?_, hgn, ?_⟩
    · intro c t e; subst e; exact hwn c _ rfl
    · intro c t e; subst e; exact hvn c _ rfl
    · rintro rfl
      cases r with
      | nil => rfl
      | cons c t =>
        have h1 := hvn c t rfl
        have h2 := hgn c t rfl
        exfalso
        by_cases e1 : c = '\r'
        · subst e1; exact absurd h2 (by decide)
        · by_cases e2 : c = '\n'
          · subst e2; exact absurd h2 (by decide)
          · simp [e1, e2] at h1
  · rintro ⟨⟨k, w, val⟩, gap, rfl, rfl, hk, hw, hv, hh, hg, hb, hs, he⟩
    have hgr : HeadNot (fun c => !(c == '\r' || c == '\n')) (gap ++ r) := by
      cases gap with
      | nil => rw [he rfl]; exact .nil
      | cons c t => intro c' t' e; cases e; exact hb _ _ rfl
    refine ⟨w ++ (val ++ (gap ++ r)), k, ⟨':' :: (w ++ (val ++ (gap ++ r))), ':', ⟨by simp [KVLine.text], hk, ?_⟩, rfl, rfl⟩,
      val ++ (gap ++ r), w, ⟨rfl, hw, ?_⟩, gap ++ r, val, ⟨rfl, hv, hgr⟩, r, gap, ⟨rfl, hg, hs⟩, rfl, rfl⟩
    · intro c t e; cases e; rfl
    · cases val with
      | nil =>
        intro c t e
        have h := hgr c t (by simpa using e)
        by_cases e1 : c = '\r'
        · subst e1; rfl
        · by_cases e2 : c = '\n'
          · subst e2; rfl
          · simp [e1, e2] at h
      | cons c t => intro c' t' e; cases e; exact hh _ _ rfl

theorem fieldLine_stops {s : Str} : (∃ e, fieldLine s = .error e) ↔ NoEntry s := by
  constructor
  · rintro ⟨e, h⟩ a b rfl
    false_or_by_contra
    rename_i hn
    have key : ∀ (a' b' : Str), AllC (fun c => !(c == ':' || c == '\n')) a' → fieldLine (a' ++ ':' :: b') ≠ .error e := by
      intro a' b' ha
      have h1 : (terminated (takeTill fun c => c == ':' || c == '\n') (char ':') : Parser Unit Str) (a' ++ ':' :: b') = .ok b' a' :=
        terminated_eq_ok.2 ⟨':' :: b', ':', takeWhile_eq_ok.2 ⟨rfl, ha, fun c t e => by cases e; rfl⟩, char_eq_ok.2 ⟨rfl, rfl⟩⟩
      unfold fieldLine
      rw [bind_ok h1]
      simp only [space0, takeTill, takeWhile, multispace0, ret, bind_app]
      intro h; cases h
    obtain ⟨a', b', e', ha⟩ : ∃ a' b', a ++ ':' :: b = a' ++ ':' :: b' ∧ AllC (fun c => !(c == ':' || c == '\n')) a' := by
      clear h key
      induction a with
      | nil => exact ⟨[], b, rfl, .nil⟩
      | cons c a ih =>
        by_cases hc : c = ':'
        · subst hc; exact ⟨[], a ++ ':' :: b, rfl, .nil⟩
        · obtain ⟨a', b', e', ha⟩ := ih (fun hm => hn (by simp [hm]))
          refine ⟨c :: a', b', by simp [e'], ?_⟩
          intro x hx
          rcases List.mem_cons.1 hx with rfl | hx
          · have : x ≠ '\n' := by rintro rfl; exact hn (by simp)
            simp [hc, this]
          · exact ha x hx
    rw [e'] at h
    exact key a' b' ha h
  · intro h
    rcases fieldLine_total s with h' | ⟨r, f, h', -⟩
    · exact h'
    · obtain ⟨l, gap, -, rfl, hk, -⟩ := fieldLine_iff.1 h'
      have := h l.key (l.ws ++ l.value ++ (gap ++ r)) (by simp [KVLine.text])
      exact absurd (hk _ this) (by decide)

theorem getFields_iff {s r : Str} {fs : List FieldLine} : getColonFieldValueLines s = .ok r fs ↔
    ∃ es, KVSplits s es r ∧ fs = es.map toFieldLine := by
  unfold getColonFieldValueLines KVSplits
  constructor
  · intro h
    induction fs generalizing s with
    | nil =>
      rcases many0_iff.1 h with ⟨e, h1, rfl, -⟩ | ⟨_, _, _, _, _, _, h⟩
      · exact ⟨[], ⟨.nil _, fieldLine_stops.1 ⟨e, h1⟩⟩, rfl⟩
      · cases h
    | cons f fs ih =>
      rcases many0_iff.1 h with ⟨e, _, _, h⟩ | ⟨r1, f', fs', h1, -, h2, h⟩
      · cases h
      · cases h
        obtain ⟨es, ⟨h3, h4⟩, rfl⟩ := ih h2
        obtain ⟨l, gap, rfl, rfl, hk, hw, hv, hh, hg, hb, hs, he⟩ := fieldLine_iff.1 h1
        exact ⟨(l, gap) :: es, ⟨.cons hk hw hv hh hg hb hs he h3, h4⟩, rfl⟩
  · rintro ⟨es, ⟨h1, h2⟩, rfl⟩
    induction h1 with
    | nil r =>
      obtain ⟨e, h⟩ := fieldLine_stops.2 h2
      exact many0_iff.2 (.inl ⟨e, h, rfl, rfl⟩)
    | @cons l gap s es r hk hw hv hh hg hb hs he h ih =>
      refine many0_iff.2 (.inr ⟨s, _, _, fieldLine_iff.2 ⟨l, gap, rfl, rfl, hk, hw, hv, hh, hg, hb, hs, he⟩, ?_, ih h2, rfl⟩)
      have := l.text_length
      simp; omega

/-- Every text has exactly one split. -/
theorem kvSplits_exists (s : Str) : ∃ es r, KVSplits s es r := by
  obtain ⟨r, fs, h, -⟩ := getFields_ok s
  obtain ⟨es, h, -⟩ := getFields_iff.1 h
  exact ⟨es, r, h⟩

theorem toFieldLine_inj {es es' : List (KVLine × Str)} (h : es.map toFieldLine = es'.map toFieldLine) : es = es' := by
  induction es generalizing es' with
  | nil => cases es' with
    | nil => rfl
    | cons _ _ => cases h
  | cons e es ih => cases es' with
    | nil => cases h
    | cons e' es' =>
      simp only [List.map_cons, List.cons.injEq] at h
      obtain ⟨h1, h2⟩ := h
      obtain ⟨⟨a, b, c⟩, d⟩ := e
      obtain ⟨⟨a', b', c'⟩, d'⟩ := e'
      cases h1
      rw [ih h2]

theorem kvSplits_unique {s : Str} {es es' : List (KVLine × Str)} {r r' : Str} (h : KVSplits s es r) (h' : KVSplits s es' r') :
    es = es' ∧ r = r' := by
  have h1 := getFields_iff.2 ⟨es, h, rfl⟩
  rw [getFields_iff.2 ⟨es', h', rfl⟩] at h1
  simp only [PRes.ok.injEq] at h1
  exact ⟨toFieldLine_inj h1.2.symm, h1.1.symm⟩

namespace Schema
variable {S : Schema}

/-- The outcome at a line that is not accepted. -/
inductive Stops (S : Schema) (v : Nat) (seen : List Str) (f : FieldLine) (m : Nat) : Res (LErr (KVErr S.Err)) S.Section → Prop
  | duplicate (h : f.name ∈ seen) : Stops S v seen f m (.err ⟨m, .duplicateField⟩)
  | unknown (h : f.name ∉ seen) (hk : ∀ k, S.name k ≠ f.name) : Stops S v seen f m (.err ⟨m, .invalidKey⟩)
  | value (h : f.name ∉ seen) {k : S.Key} (hk : S.name k = f.name) {e : S.Err} (hp : S.parse k v f.value = .err e) :
      Stops S v seen f m (.err ⟨m, .field e⟩)
  | panic (h : f.name ∉ seen) {k : S.Key} (hk : S.name k = f.name) (hp : S.parse k v f.value = .panic) :
      Stops S v seen f m .panic

theorem lookup_none (hS : S.Lawful) {nm : Str} (h : S.lookup nm = none) (k : S.Key) : S.name k ≠ nm := by
  rintro rfl
  rw [lookup_name hS] at h; cases h

theorem run_stops (hS : S.Lawful) (v : Nat) (o : Res (LErr (KVErr S.Err)) S.Section) (ho : o.isOk = false) (fs : List FieldLine) :
    ∀ (n : Nat) (seen : List Str) (sec : S.Section), S.run v fs n seen sec = o ↔
    ∃ pre f post, fs = pre ++ f :: post ∧ (pre.map FieldLine.name).Nodup ∧ (∀ g ∈ pre, g.name ∉ seen) ∧
      (∀ g ∈ pre, ∃ k x, S.name k = g.name ∧ S.parse k v g.value = .ok x) ∧
      Stops S v (seen ++ pre.map FieldLine.name) f (n + (pre.map fun g => (lines g.ws2).length).sum) o := by
  induction fs with
  | nil =>
    intro n seen sec
    constructor
    · intro h; rw [run] at h; subst h; cases ho
    · rintro ⟨pre, f, post, h, -⟩; simp at h
  | cons f fs ih =>
    intro n seen sec
    -- the first line is the one
    have here : Stops S v seen f n o → (S.run v (f :: fs) n seen sec = o ∧ ∃ pre g post, f :: fs = pre ++ g :: post ∧
        (pre.map FieldLine.name).Nodup ∧ (∀ g ∈ pre, g.name ∉ seen) ∧
        (∀ g ∈ pre, ∃ k x, S.name k = g.name ∧ S.parse k v g.value = .ok x) ∧
        Stops S v (seen ++ pre.map FieldLine.name) g (n + (pre.map fun g => (lines g.ws2).length).sum) o) := by
      intro h
      refine ⟨?_, [], f, fs, rfl, by simp, by simp, by simp, by simpa using h⟩
      rw [run]
      cases h with
      | duplicate h => rw [if_pos h]
      | unknown h hk =>
        rw [if_neg h]
        cases hl : S.lookup f.name with
        | none => rfl
        | some k => exact absurd (lookup_some hl) (hk k)
      | value h hk hp => rw [if_neg h, ← hk, lookup_name hS]; simp only [hp]
      | panic h hk hp => rw [if_neg h, ← hk, lookup_name hS]; simp only [hp]
    by_cases hs : Stops S v seen f n o
    · obtain ⟨h1, h2⟩ := here hs
      exact ⟨fun _ => h2, fun _ => h1⟩
    · by_cases hf : f.name ∈ seen
      · constructor
        · intro h
          rw [run, if_pos hf] at h
          subst h
          exact absurd (Stops.duplicate hf) hs
        · rintro ⟨pre, g, post, e, -, h2, -, h4⟩
          cases pre with
          | nil => cases e; exact absurd (by simpa using h4) hs
          | cons p pre => cases e; exact absurd hf (h2 _ (by simp))
      · cases hl : S.lookup f.name with
        | none =>
          have hk := lookup_none hS hl
          constructor
          · intro h
            rw [run, if_neg hf, hl] at h
            subst h
            exact absurd (Stops.unknown hf hk) hs
          · rintro ⟨pre, g, post, e, -, -, h3, h4⟩
            cases pre with
            | nil => cases e; exact absurd (by simpa using h4) hs
            | cons p pre => cases e; obtain ⟨k, x, h5, -⟩ := h3 f (by simp); exact absurd h5 (hk k)
        | some k =>
          have hk := lookup_some hl
          have huniq : ∀ k', S.name k' = f.name → k' = k := by
            intro k' h
            have := lookup_name hS k'
            rw [h, hl] at this
            cases this; rfl
          have notok : (∀ x, S.parse k v f.value ≠ .ok x) → ¬ ∃ pre g post, f :: fs = pre ++ g :: post ∧
              (pre.map FieldLine.name).Nodup ∧ (∀ g ∈ pre, g.name ∉ seen) ∧
              (∀ g ∈ pre, ∃ k x, S.name k = g.name ∧ S.parse k v g.value = .ok x) ∧
              Stops S v (seen ++ pre.map FieldLine.name) g (n + (pre.map fun g => (lines g.ws2).length).sum) o := by
            rintro hx ⟨pre, g, post, e, -, -, h3, h4⟩
            cases pre with
            | nil => cases e; exact absurd (by simpa using h4) hs
            | cons p pre =>
              cases e
              obtain ⟨k', x, h5, h6⟩ := h3 f (by simp)
              obtain rfl := huniq k' h5
              exact hx x h6
          rw [run, if_neg hf, hl]
          cases hp : S.parse k v f.value with
          | err e =>
            constructor
            · intro h; simp only [hp] at h; subst h; exact absurd (Stops.value hf hk hp) hs
            · intro h; exact absurd h (notok (by rw [hp]; intro x h; cases h))
          | panic =>
            constructor
            · intro h; simp only [hp] at h; subst h; exact absurd (Stops.panic hf hk hp) hs
            · intro h; exact absurd h (notok (by rw [hp]; intro x h; cases h))
          | ok x =>
            simp only [hp]
            rw [ih]
            constructor
            · rintro ⟨pre, g, post, rfl, h1, h2, h3, h4⟩
              refine ⟨f :: pre, g, post, rfl, ?_, ?_, ?_, ?_⟩
              · rw [List.map_cons, List.nodup_cons]
                refine ⟨fun hm => ?_, h1⟩
                obtain ⟨g', hg', e⟩ := List.mem_map.1 hm
                exact h2 g' hg' (by rw [e]; simp)
              · intro g' hg'
                rcases List.mem_cons.1 hg' with rfl | hg'
                · exact hf
                · intro hm; exact h2 g' hg' (by simp [hm])
              · intro g' hg'
                rcases List.mem_cons.1 hg' with rfl | hg'
                · exact ⟨k, x, hk, hp⟩
                · exact h3 g' hg'
              · simpa [Nat.add_assoc] using h4
            · rintro ⟨pre, g, post, e, h1, h2, h3, h4⟩
              cases pre with
              | nil => cases e; exact absurd (by simpa using h4) hs
              | cons p pre =>
                simp only [List.cons_append, List.cons.injEq] at e
                obtain ⟨rfl, rfl⟩ := e
                rw [List.map_cons, List.nodup_cons] at h1
                refine ⟨pre, g, post, rfl, h1.2, ?_, fun g' hg' => h3 g' (by simp [hg']), by simpa [Nat.add_assoc] using h4⟩
                intro g' hg' hm
                rcases List.mem_append.1 hm with hm | hm
                · exact h2 g' (by simp [hg']) hm
                · exact h1.1 (by rw [← List.mem_singleton.1 hm]; exact List.mem_map_of_mem hg')

/-- The entries are accepted one by one: keys are known, not repeated, and their values are accepted. -/
def Accepts (S : Schema) (v : Nat) (es : List (KVLine × Str)) : Prop :=
  (es.map fun e => e.1.key).Nodup ∧ ∀ e ∈ es, ∃ k x, S.name k = e.1.key ∧ S.parse k v e.1.value = .ok x

theorem fromStr_split {s : Str} {es : List (KVLine × Str)} {r : Str} (h : KVSplits s es r) (v : Nat) :
    S.fromStr v s = if trim r ≠ [] then .err ⟨kvCount es, .invalidColonSet⟩ else
      S.run v (es.map toFieldLine) 0 [] S.empty := by
  unfold fromStr
  rw [getFields_iff.2 ⟨es, h, rfl⟩]
  simp only [List.map_map]
  rfl

theorem fromStr_ok_iff (hS : S.Lawful) (v : Nat) (s : Str) (sec : S.Section) :
    S.fromStr v s = .ok sec ↔ ∃ es r, KVSplits s es r ∧ trim r = [] ∧ (es.map fun e => e.1.key).Nodup ∧
      (∀ e ∈ es, ∃ k, S.name k = e.1.key ∧ S.parse k v e.1.value = .ok (sec k)) ∧
      (∀ k, (∀ e ∈ es, e.1.key ≠ S.name k) → sec k = none) := by
  obtain ⟨es, r, hs⟩ := kvSplits_exists s
  rw [fromStr_split hs]
  have e1 : (es.map toFieldLine).map FieldLine.name = es.map fun e => e.1.key := by
    rw [List.map_map]; rfl
  have key : S.run v (es.map toFieldLine) 0 [] S.empty = .ok sec ↔ (es.map fun e => e.1.key).Nodup ∧
      (∀ e ∈ es, ∃ k, S.name k = e.1.key ∧ S.parse k v e.1.value = .ok (sec k)) ∧
      (∀ k, (∀ e ∈ es, e.1.key ≠ S.name k) → sec k = none) := by
    rw [run_ok_iff hS, e1]
    simp only [List.mem_map, forall_exists_index, and_imp, forall_apply_eq_imp_iff₂, List.not_mem_nil, not_false_eq_true,
      implies_true, true_and]
    rfl
  constructor
  · intro h
    split at h
    · cases h
    · rename_i hr
      exact ⟨es, r, hs, by simpa using hr, key.1 h⟩
  · rintro ⟨es', r', hs', hr, h⟩
    obtain ⟨rfl, rfl⟩ := kvSplits_unique hs hs'
    rw [if_neg (by simp [hr])]
    exact key.2 h

theorem run_not_colon {v : Nat} {fs : List FieldLine} (m : Nat) :
    ∀ (n : Nat) (seen : List Str) (sec : S.Section), S.run v fs n seen sec ≠ .err ⟨m, .invalidColonSet⟩ := by
  induction fs with
  | nil => intro n seen sec h; cases h
  | cons f fs ih =>
    intro n seen sec h
    rw [run] at h
    split at h
    · cases h
    · split at h
      · cases h
      · split at h
        · cases h
        · cases h
        · exact ih _ _ _ h

theorem fromStr_colon_iff (v : Nat) (s : Str) (n : Nat) :
    S.fromStr v s = .err ⟨n, .invalidColonSet⟩ ↔ ∃ es r, KVSplits s es r ∧ trim r ≠ [] ∧ n = kvCount es := by
  obtain ⟨es, r, hs⟩ := kvSplits_exists s
  rw [fromStr_split hs]
  constructor
  · intro h
    split at h
    · rename_i hr; cases h; exact ⟨es, r, hs, hr, rfl⟩
    · exact absurd h (run_not_colon n _ _ _)
  · rintro ⟨es', r', hs', hr, rfl⟩
    obtain ⟨rfl, rfl⟩ := kvSplits_unique hs hs'
    rw [if_pos hr]

theorem fromStr_stops (hS : S.Lawful) (v : Nat) (s : Str) (o : Res (LErr (KVErr S.Err)) S.Section) (ho : o.isOk = false)
    (hc : ∀ n, o ≠ .err ⟨n, .invalidColonSet⟩) :
    S.fromStr v s = o ↔ ∃ pre e post r, KVSplits s (pre ++ e :: post) r ∧ trim r = [] ∧ S.Accepts v pre ∧
      Stops S v (pre.map fun e => e.1.key) (toFieldLine e) (kvCount pre) o := by
  obtain ⟨es, r, hs⟩ := kvSplits_exists s
  rw [fromStr_split hs]
  have e1 : ∀ es : List (KVLine × Str), (es.map toFieldLine).map FieldLine.name = es.map fun e => e.1.key := by
    intro es; rw [List.map_map]; rfl
  have e2 : ∀ es : List (KVLine × Str), ((es.map toFieldLine).map fun g => (lines g.ws2).length).sum = kvCount es := by
    intro es; rw [List.map_map]; rfl
  constructor
  · intro h
    split at h
    · exact absurd h.symm (hc _)
    · rename_i hr
      obtain ⟨pre, f, post, he, h1, -, h3, h4⟩ := (run_stops hS v o ho _ _ _ _).1 h
      obtain ⟨pre', es2, rfl, rfl, he2⟩ := List.map_eq_append_iff.1 he
      obtain ⟨e, post', rfl, rfl, rfl⟩ := List.map_eq_cons_iff.1 he2
      rw [e1, e2, Nat.zero_add, List.nil_append] at h4
      rw [e1] at h1
      refine ⟨pre', e, post', r, hs, by simpa using hr, ⟨h1, fun e he => ?_⟩, h4⟩
      obtain ⟨k, x, h5⟩ := h3 (toFieldLine e) (List.mem_map_of_mem he)
      exact ⟨k, x, h5⟩
  · rintro ⟨pre, e, post, r', hs', hr, ⟨h1, h3⟩, h4⟩
    obtain ⟨rfl, rfl⟩ := kvSplits_unique hs hs'
    rw [if_neg (by simp [hr]), run_stops hS v o ho]
    refine ⟨pre.map toFieldLine, toFieldLine e, post.map toFieldLine, by simp, by rw [e1]; exact h1, by simp, ?_, ?_⟩
    · intro g hg
      obtain ⟨e', he', rfl⟩ := List.mem_map.1 hg
      exact h3 e' he'
    · rw [e1, e2, Nat.zero_add, List.nil_append]; exact h4

end Schema
end Osu
