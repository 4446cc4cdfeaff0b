/-
Generic theorems on key/value sections.
-/
import Verif.Model.KV
import Verif.Spec.KV
import Verif.Proof.Nom

namespace Osu
open Parser

theorem isMultispace_eol {e : Str} (h : IsEol e) : AllC isMultispace e := by
  rcases h with rfl | rfl <;> decide

theorem lines_eol {e : Str} (h : IsEol e) : (lines e).length = 1 := by
  rcases h with rfl | rfl <;> decide

theorem headNot_app {f : Char → Bool} {s t : Str} (hs : HeadNot f s) (ht : HeadNot f t) : HeadNot f (s ++ t) := by
  cases s with
  | nil => simpa using ht
  | cons c r => exact .cons hs.of_cons

/-- The field line parser on a line followed by white space `w` and more text. -/
theorem fieldLine_app {l : KVLine} (h : l.OK) {w r : Str} (hw : AllC isMultispace w)
    (hw2 : HeadNot (fun c => !(c == '\r' || c == '\n')) w) (hwn : w = [] → r = [])
    (hr : HeadNot isMultispace r) :
    fieldLine (l.text ++ (w ++ r)) = .ok r ⟨l.key, l.ws, l.value, w⟩ := by
  have h1 : (terminated (takeTill fun c => c == ':' || c == '\n') (char ':') : Parser Unit Str)
      (l.text ++ (w ++ r)) = .ok (l.ws ++ (l.value ++ (w ++ r))) l.key := by
    unfold terminated KVLine.text takeTill
    rw [List.append_assoc, bind_ok (takeWhile_ok h.key (by apply HeadNot.cons; decide))]
    simp [char]
  have hwr : HeadNot (fun c => !(c == '\r' || c == '\n')) (w ++ r) := by
    cases w with
    | nil => rw [hwn rfl]; exact .nil
    | cons c w => exact .cons hw2.of_cons
  have h2 : HeadNot isSpace (l.value ++ (w ++ r)) := by
    apply headNot_app h.valueHead
    intro c t e
    have := hwr c t e
    simp at this
    by_cases hc : c = '\n'
    · subst hc; decide
    · by_cases hc' : c = '\r'
      · subst hc'; decide
      · exact absurd (this hc') hc
  unfold fieldLine
  rw [bind_ok h1]
  unfold takeTill space0 multispace0
  rw [bind_ok (takeWhile_ok h.ws h2)]
  rw [bind_ok (takeWhile_ok h.value hwr), bind_ok (takeWhile_ok hw hr)]
  rfl

/-- The fields the parser sees in a section of such lines; `last` is the white space after the last. -/
def toFields (eol last : Str) : List KVLine → List FieldLine
  | [] => []
  | [l] => [⟨l.key, l.ws, l.value, last⟩]
  | l :: l' :: ls => ⟨l.key, l.ws, l.value, eol⟩ :: toFields eol last (l' :: ls)

theorem fieldLine_error {s : Str} {b t : Str} (hb : AllC (fun c => !(c == ':' || c == '\n')) b)
    (ht : HeadNot (fun c => !(c == '\n')) t) (hs : s = b ++ t) : ∃ e, fieldLine s = .error e := by
  subst hs
  have ht' : HeadNot (fun c => !(c == ':' || c == '\n')) t := by
    intro c r e
    have := ht c r e
    simp at this
    simp [this]
  unfold fieldLine
  have h1 : ∃ e, (terminated (takeTill fun c => c == ':' || c == '\n') (char ':') : Parser Unit Str)
      (b ++ t) = .error e := by
    unfold terminated takeTill
    rw [bind_ok (takeWhile_ok hb ht')]
    cases t with
    | nil => exact ⟨_, rfl⟩
    | cons c r =>
      have := ht c r rfl
      have hc : c ≠ ':' := by
        intro e; subst e; simp at this
      simp [char, hc]
  obtain ⟨e, he⟩ := h1
  simp [he]

theorem KVLine.text_length (l : KVLine) : 0 < l.text.length := by
  unfold KVLine.text; simp; omega

theorem kvText_headNot {eol : Str} {ls : List KVLine} (h : ∀ l ∈ ls, l.OK) (hne : ls ≠ []) (t : Str) :
    HeadNot isMultispace (kvText eol ls ++ t) := by
  have key : ∀ {l : KVLine}, l.OK → ∀ t, HeadNot isMultispace (l.text ++ t) := by
    intro l hl t
    unfold KVLine.text
    rw [List.append_assoc]
    exact headNot_app hl.keyHead (.cons (by decide))
  cases ls with
  | nil => exact absurd rfl hne
  | cons l ls =>
    have hl := h l (by simp)
    cases ls with
    | nil => exact key hl t
    | cons l' ls =>
      unfold kvText
      simp only [List.map_cons, join_cons_cons, List.append_assoc]
      exact key hl _

/-- Core: the field list of a section text followed by an end `w ++ r` where parsing must stop. -/
theorem getFields_app {eol : Str} (he : IsEol eol) {ls : List KVLine} (h : ∀ l ∈ ls, l.OK) (hne : ls ≠ [])
    {w r : Str} (hw : AllC isMultispace w)
    (hw2 : HeadNot (fun c => !(c == '\r' || c == '\n')) w) (hwn : w = [] → r = [])
    (hr : HeadNot isMultispace r) (hstop : ∃ e, fieldLine r = .error e) :
    getColonFieldValueLines (kvText eol ls ++ (w ++ r)) = .ok r (toFields eol w ls) := by
  induction ls with
  | nil => exact absurd rfl hne
  | cons l ls ih =>
    have hl := h l (by simp)
    cases ls with
    | nil =>
      obtain ⟨e, hstop⟩ := hstop
      have := fieldLine_app hl hw hw2 hwn hr
      refine many0_cons this ?_ (many0_nil hstop)
      have := l.text_length
      simp [kvText, join]; omega
    | cons l' ls =>
      have ih' := ih (fun x hx => h x (by simp [hx])) (by simp)
      have hh := kvText_headNot (eol := eol) (fun x hx => h x (List.mem_cons_of_mem _ hx))
        (ls := l' :: ls) (by simp) (w ++ r)
      have e1 : kvText eol (l :: l' :: ls) ++ (w ++ r) =
          l.text ++ (eol ++ (kvText eol (l' :: ls) ++ (w ++ r))) := by
        unfold kvText
        simp only [List.map_cons, join_cons_cons, List.append_assoc]
      rw [e1]
      have := fieldLine_app hl (isMultispace_eol he)
        (by rcases he with rfl | rfl <;> exact .cons (by decide))
        (fun e => by rcases he with rfl | rfl <;> cases e) hh
      refine many0_cons this ?_ ih'
      have := l.text_length
      simp; omega

theorem fieldLine_nil : ∃ e, fieldLine [] = .error e := ⟨_, rfl⟩

theorem getFields_text {eol : Str} (he : IsEol eol) {ls : List KVLine} (h : ∀ l ∈ ls, l.OK) :
    getColonFieldValueLines (kvText eol ls) = .ok [] (toFields eol [] ls) := by
  cases ls with
  | nil => rfl
  | cons l ls =>
    have := getFields_app he h (by simp) (w := []) (r := []) .nil .nil (fun _ => rfl) .nil fieldLine_nil
    simpa using this

/-! ### The loop over the fields -/

/-- What the proofs need of a schema; checked for all four sections. -/
structure Schema.Lawful (S : Schema) : Prop where
  all : ∀ k, k ∈ S.keys
  nodup : S.keys.Nodup
  inj : ∀ k k', S.name k = S.name k' → k = k'
  nameOK : ∀ k, AllC (fun c => !(c == ':' || c == '\n')) (S.name k)
  nameHead : ∀ k, HeadNot isMultispace (S.name k)
  spacing : ∀ v t, AllC isSpace (S.spacing v t)

namespace Schema
variable {S : Schema}

theorem lookup_name (hS : S.Lawful) (k : S.Key) : S.lookup (S.name k) = some k := by
  unfold lookup
  cases h : S.keys.find? (fun k' => S.name k' == S.name k) with
  | none =>
    have := List.find?_eq_none.1 h k (hS.all k)
    simp at this
  | some k' =>
    have := List.find?_some h
    rw [hS.inj k' k (by simpa using this)]

theorem lookup_some {nm : Str} {k : S.Key} (h : S.lookup nm = some k) : S.name k = nm := by
  unfold lookup at h
  have := List.find?_some h
  simpa using this

theorem set_same (sec : S.Section) (k : S.Key) (v) : S.set sec k v k = v := by
  unfold set; simp

theorem set_other (sec : S.Section) {k k' : S.Key} (v) (h : k' ≠ k) : S.set sec k v k' = sec k' := by
  unfold set; simp [h]

/-- Exact condition for the loop to succeed. -/
theorem run_ok_iff (hS : S.Lawful) (v : Nat) (fs : List FieldLine) :
    ∀ (n : Nat) (seen : List Str) (sec0 sec : S.Section),
    S.run v fs n seen sec0 = .ok sec ↔
      (fs.map FieldLine.name).Nodup ∧ (∀ f ∈ fs, f.name ∉ seen) ∧
      (∀ f ∈ fs, ∃ k, S.name k = f.name ∧ S.parse k v f.value = .ok (sec k)) ∧
      (∀ k, (∀ f ∈ fs, f.name ≠ S.name k) → sec k = sec0 k) := by
  induction fs with
  | nil =>
    intro n seen sec0 sec
    simp only [run, List.map_nil, List.nodup_nil, true_and, List.not_mem_nil, false_implies, implies_true]
    constructor
    · intro h; cases h; simp
    · intro h; exact congrArg Res.ok (funext fun k => (h k trivial).symm)
  | cons f fs ih =>
    intro n seen sec0 sec
    rw [run]
    by_cases hf : f.name ∈ seen
    · simp only [hf, if_true]
      constructor
      · intro h; cases h
      · rintro ⟨_, h, _⟩; exact absurd hf (h f (by simp))
    · simp only [hf, if_false]
      cases hl : S.lookup f.name with
      | none =>
        constructor
        · intro h; cases h
        · rintro ⟨_, _, h, _⟩
          obtain ⟨k, hk, _⟩ := h f (by simp)
          rw [← hk, lookup_name hS] at hl; cases hl
      | some k =>
        have hk := lookup_some hl
        simp only
        cases hp : S.parse k v f.value with
        | err e =>
          constructor
          · intro h; cases h
          · rintro ⟨_, _, h, _⟩
            obtain ⟨k', hk', h'⟩ := h f (by simp)
            have := hS.inj k' k (hk'.trans hk.symm)
            subst this
            rw [hp] at h'; cases h'
        | panic =>
          constructor
          · intro h; cases h
          · rintro ⟨_, _, h, _⟩
            obtain ⟨k', hk', h'⟩ := h f (by simp)
            have := hS.inj k' k (hk'.trans hk.symm)
            subst this
            rw [hp] at h'; cases h'
        | ok x =>
          simp only
          rw [ih]
          constructor
          · rintro ⟨h1, h2, h3, h4⟩
            have hnot : ∀ g ∈ fs, g.name ≠ f.name := by
              intro g hg e
              exact h2 g hg (by simp [e])
            have hsk : sec k = x := by
              rw [h4 k (fun g hg => by rw [hk]; exact hnot g hg), set_same]
            refine ⟨?_, ?_, ?_, ?_⟩
            · rw [List.map_cons, List.nodup_cons]
              refine ⟨?_, h1⟩
              rw [List.mem_map]
              rintro ⟨g, hg, e⟩
              exact hnot g hg e
            · intro g hg
              rcases List.mem_cons.1 hg with rfl | hg
              · exact hf
              · intro hc; exact h2 g hg (by simp [hc])
            · intro g hg
              rcases List.mem_cons.1 hg with rfl | hg
              · exact ⟨k, hk, by rw [hp, hsk]⟩
              · exact h3 g hg
            · intro k' hk'
              have hne : k' ≠ k := by
                rintro rfl
                exact hk' f (by simp) hk.symm
              rw [h4 k' (fun g hg => hk' g (by simp [hg])), set_other _ _ hne]
          · rintro ⟨h1, h2, h3, h4⟩
            rw [List.map_cons, List.nodup_cons] at h1
            have hnot : ∀ g ∈ fs, g.name ≠ f.name := by
              intro g hg e
              exact h1.1 (List.mem_map.2 ⟨g, hg, e⟩)
            refine ⟨h1.2, ?_, fun g hg => h3 g (by simp [hg]), ?_⟩
            · intro g hg
              simp only [List.mem_append, List.mem_singleton, not_or]
              exact ⟨h2 g (by simp [hg]), hnot g hg⟩
            · intro k' hk'
              by_cases e : k' = k
              · subst e
                obtain ⟨k2, hk2, h'⟩ := h3 f (by simp)
                have := hS.inj k2 k' (hk2.trans hk.symm)
                subst this
                rw [hp] at h'
                cases h'
                rw [set_same]
              · rw [set_other _ _ e]
                refine h4 k' ?_
                intro g hg
                rcases List.mem_cons.1 hg with rfl | hg
                · rw [← hk]; intro h; exact e (hS.inj _ _ h).symm
                · exact hk' g hg

/-- After fields that are accepted on their own, the loop goes on with the rest. -/
theorem run_append {v : Nat} {fs gs : List FieldLine} :
    ∀ {n : Nat} {seen : List Str} {sec0 sec : S.Section}, S.run v fs n seen sec0 = .ok sec →
    S.run v (fs ++ gs) n seen sec0 =
      S.run v gs (n + (fs.map fun f => (lines f.ws2).length).sum) (seen ++ fs.map FieldLine.name) sec := by
  induction fs with
  | nil => intro n seen sec0 sec h; cases h; simp
  | cons f fs ih =>
    intro n seen sec0 sec h
    rw [run] at h
    rw [List.cons_append, run]
    split at h
    · cases h
    · rename_i hf
      rw [if_neg hf]
      cases hl : S.lookup f.name with
      | none => rw [hl] at h; cases h
      | some k =>
        rw [hl] at h
        simp only at h ⊢
        cases hp : S.parse k v f.value with
        | err e => rw [hp] at h; cases h
        | panic => rw [hp] at h; cases h
        | ok x =>
          rw [hp] at h
          simp only at h ⊢
          rw [ih h]
          simp [Nat.add_assoc, List.append_assoc]

end Schema

theorem toFields_eq_map (eol last : Str) (ls : List KVLine) (P : Str → Str → Prop) :
    (∀ f ∈ toFields eol last ls, P f.name f.value) ↔ ∀ l ∈ ls, P l.key l.value := by
  induction ls with
  | nil => simp [toFields]
  | cons l ls ih =>
    cases ls with
    | nil => simp [toFields]
    | cons l' ls => rw [toFields, List.forall_mem_cons, ih, List.forall_mem_cons (a := l)]

theorem toFields_names (eol last : Str) (ls : List KVLine) :
    (toFields eol last ls).map FieldLine.name = ls.map KVLine.key := by
  induction ls with
  | nil => rfl
  | cons l ls ih =>
    cases ls with
    | nil => rfl
    | cons l' ls => rw [toFields, List.map_cons, ih]; rfl

theorem toFields_append (eol last : Str) (ls : List KVLine) (l : KVLine) (rs : List KVLine) :
    toFields eol last (ls ++ l :: rs) = toFields eol eol ls ++ toFields eol last (l :: rs) := by
  induction ls with
  | nil => rfl
  | cons a ls ih =>
    cases ls with
    | nil => rfl
    | cons b ls =>
      have : toFields eol last (a :: b :: ls ++ l :: rs) =
        ⟨a.key, a.ws, a.value, eol⟩ :: toFields eol last (b :: ls ++ l :: rs) := rfl
      rw [this, ih]
      rfl

theorem toFields_lines {eol : Str} (he : IsEol eol) (ls : List KVLine) :
    ((toFields eol eol ls).map fun f => (lines f.ws2).length).sum = ls.length := by
  induction ls with
  | nil => rfl
  | cons l ls ih =>
    cases ls with
    | nil => simp [toFields, lines_eol he]
    | cons l' ls =>
      rw [toFields, List.map_cons, List.sum_cons, ih, lines_eol he]
      simp; omega

theorem toFields_head (eol last : Str) (l : KVLine) (rs : List KVLine) :
    ∃ w fs, toFields eol last (l :: rs) = ⟨l.key, l.ws, l.value, w⟩ :: fs := by
  cases rs with
  | nil => exact ⟨_, _, rfl⟩
  | cons r rs => exact ⟨_, _, rfl⟩

namespace Schema
variable {S : Schema}

theorem fromStr_text {eol : Str} (he : IsEol eol) {ls : List KVLine} (h : ∀ l ∈ ls, l.OK) (v : Nat) :
    S.fromStr v (kvText eol ls) = S.run v (toFields eol [] ls) 0 [] S.empty := by
  unfold fromStr
  rw [getFields_text he h]
  have : trim [] = [] := rfl
  simp [this]

/-- **Meaning of a key/value text**: exactly which sections are accepted and with which value. -/
theorem fromStr_text_ok_iff (hS : S.Lawful) {eol : Str} (he : IsEol eol) {ls : List KVLine}
    (h : ∀ l ∈ ls, l.OK) (v : Nat) (sec : S.Section) :
    S.fromStr v (kvText eol ls) = .ok sec ↔
      (ls.map KVLine.key).Nodup ∧
      (∀ l ∈ ls, ∃ k, S.name k = l.key ∧ S.parse k v l.value = .ok (sec k)) ∧
      (∀ k, (∀ l ∈ ls, l.key ≠ S.name k) → sec k = none) := by
  rw [fromStr_text he h, run_ok_iff hS, toFields_names,
    toFields_eq_map _ _ _ (fun nm val => ∃ k, S.name k = nm ∧ S.parse k v val = .ok (sec k))]
  have e : ∀ k, (∀ f ∈ toFields eol [] ls, f.name ≠ S.name k) ↔ (∀ l ∈ ls, l.key ≠ S.name k) :=
    fun k => toFields_eq_map _ _ _ (fun nm _ => nm ≠ S.name k)
  simp only [e]
  simp [empty]

/-- A repeated key is reported with the index of its line. -/
theorem fromStr_duplicate (hS : S.Lawful) {eol : Str} (he : IsEol eol) {ls rs : List KVLine} {l : KVLine}
    (h : ∀ x ∈ ls ++ l :: rs, x.OK) {v : Nat} {sec : S.Section}
    (hok : S.fromStr v (kvText eol ls) = .ok sec) (hdup : l.key ∈ ls.map KVLine.key) :
    S.fromStr v (kvText eol (ls ++ l :: rs)) = .err ⟨ls.length, .duplicateField⟩ := by
  have hls : ∀ x ∈ ls, x.OK := fun x hx => h x (by simp [hx])
  have hrun : S.run v (toFields eol eol ls) 0 [] S.empty = .ok sec := by
    rw [fromStr_text_ok_iff hS he hls] at hok
    rw [run_ok_iff hS, toFields_names,
      toFields_eq_map _ _ _ (fun nm val => ∃ k, S.name k = nm ∧ S.parse k v val = .ok (sec k))]
    refine ⟨hok.1, by simp, hok.2.1, fun k hk => ?_⟩
    exact hok.2.2 k ((toFields_eq_map eol eol ls (fun nm _ => nm ≠ S.name k)).1 hk)
  rw [fromStr_text he h, toFields_append, run_append hrun, toFields_lines he, toFields_names]
  obtain ⟨w, fs, e⟩ := toFields_head eol [] l rs
  rw [e, run]
  simp only [List.nil_append, Nat.zero_add]
  rw [if_pos hdup]

/-- An unknown key is reported with the index of its line. -/
theorem fromStr_unknown (hS : S.Lawful) {eol : Str} (he : IsEol eol) {ls rs : List KVLine} {l : KVLine}
    (h : ∀ x ∈ ls ++ l :: rs, x.OK) {v : Nat} {sec : S.Section}
    (hok : S.fromStr v (kvText eol ls) = .ok sec) (hunk : ∀ k, S.name k ≠ l.key) :
    S.fromStr v (kvText eol (ls ++ l :: rs)) = .err ⟨ls.length, .invalidKey⟩ := by
  have hls : ∀ x ∈ ls, x.OK := fun x hx => h x (by simp [hx])
  rw [fromStr_text_ok_iff hS he hls] at hok
  have hrun : S.run v (toFields eol eol ls) 0 [] S.empty = .ok sec := by
    rw [run_ok_iff hS, toFields_names,
      toFields_eq_map _ _ _ (fun nm val => ∃ k, S.name k = nm ∧ S.parse k v val = .ok (sec k))]
    refine ⟨hok.1, by simp, hok.2.1, fun k hk => ?_⟩
    exact hok.2.2 k ((toFields_eq_map eol eol ls (fun nm _ => nm ≠ S.name k)).1 hk)
  rw [fromStr_text he h, toFields_append, run_append hrun, toFields_lines he, toFields_names]
  obtain ⟨w, fs, e⟩ := toFields_head eol [] l rs
  rw [e, run]
  simp only [List.nil_append, Nat.zero_add]
  rw [if_neg]
  · cases hl : S.lookup l.key with
    | none => rfl
    | some k => exact absurd (lookup_some hl) (hunk k)
  · intro hm
    obtain ⟨x, hx, e⟩ := List.mem_map.1 hm
    obtain ⟨k, hk, _⟩ := hok.2.1 x hx
    exact hunk k (hk.trans e)

/-- A value that its field type rejects is reported with the index of its line. -/
theorem fromStr_badValue (hS : S.Lawful) {eol : Str} (he : IsEol eol) {ls rs : List KVLine} {l : KVLine}
    (h : ∀ x ∈ ls ++ l :: rs, x.OK) {v : Nat} {sec : S.Section}
    (hok : S.fromStr v (kvText eol ls) = .ok sec) (hnew : l.key ∉ ls.map KVLine.key)
    {k : S.Key} (hk : S.name k = l.key) {e : S.Err} (hp : S.parse k v l.value = .err e) :
    S.fromStr v (kvText eol (ls ++ l :: rs)) = .err ⟨ls.length, .field e⟩ := by
  have hls : ∀ x ∈ ls, x.OK := fun x hx => h x (by simp [hx])
  rw [fromStr_text_ok_iff hS he hls] at hok
  have hrun : S.run v (toFields eol eol ls) 0 [] S.empty = .ok sec := by
    rw [run_ok_iff hS, toFields_names,
      toFields_eq_map _ _ _ (fun nm val => ∃ k, S.name k = nm ∧ S.parse k v val = .ok (sec k))]
    refine ⟨hok.1, by simp, hok.2.1, fun k hk => ?_⟩
    exact hok.2.2 k ((toFields_eq_map eol eol ls (fun nm _ => nm ≠ S.name k)).1 hk)
  rw [fromStr_text he h, toFields_append, run_append hrun, toFields_lines he, toFields_names]
  obtain ⟨w, fs, e'⟩ := toFields_head eol [] l rs
  rw [e', run]
  simp only [List.nil_append, Nat.zero_add]
  rw [if_neg hnew, ← hk, lookup_name hS]
  simp only [hp]

/-- A line without a colon is reported with its index, whatever comes after it. -/
theorem fromStr_noColon {eol : Str} (he : IsEol eol) {ls : List KVLine} (h : ∀ x ∈ ls, x.OK)
    {b t : Str} (hb : AllC (fun c => !(c == ':' || c == '\n')) b) (hh : HeadNot isMultispace b)
    (hws : ¬ AllC isWs b) (ht : HeadNot (fun c => !(c == '\n')) t) (v : Nat) :
    S.fromStr v (join eol (ls.map KVLine.text ++ [b]) ++ t) = .err ⟨ls.length, .invalidColonSet⟩ := by
  have hbne : b ≠ [] := by rintro rfl; exact hws .nil
  have hbt : HeadNot isMultispace (b ++ t) := by
    cases b with
    | nil => exact absurd rfl hbne
    | cons c b => exact .cons hh.of_cons
  have htrim : trim (b ++ t) ≠ [] := by
    rw [ne_eq, trim_eq_nil]
    intro h'
    exact hws fun c hc => h' c (by simp [hc])
  have hstop := fieldLine_error hb ht rfl
  unfold fromStr
  by_cases hne : ls = []
  · subst hne
    obtain ⟨e, he'⟩ := hstop
    have : getColonFieldValueLines (b ++ t) = .ok (b ++ t) [] := many0_nil he'
    simp only [List.map_nil, List.nil_append, join, this]
    simp [htrim]
  · have e1 : join eol (ls.map KVLine.text ++ [b]) ++ t = kvText eol ls ++ (eol ++ (b ++ t)) := by
      unfold kvText
      clear h
      induction ls with
      | nil => exact absurd rfl hne
      | cons l ls ih =>
        cases ls with
        | nil => simp [join]
        | cons l' ls =>
          have := ih (by simp)
          simp only [List.map_cons, List.cons_append, join_cons_cons, List.append_assoc] at this ⊢
          rw [this]
    rw [e1, getFields_app he h hne (isMultispace_eol he)
      (by rcases he with rfl | rfl <;> exact .cons (by decide))
      (fun e => by rcases he with rfl | rfl <;> cases e) hbt hstop]
    simp only [htrim, ne_eq, not_false_eq_true, if_true, toFields_lines he]

end Schema
end Osu

namespace Osu
open Parser

/-- Text that can stand after the colon: no line break, no leading blank. -/
structure GoodVal (t : Str) : Prop where
  chars : AllC (fun c => !(c == '\r' || c == '\n')) t
  head : HeadNot isSpace t

theorem fieldLine_value {s r : Str} {f : FieldLine} (h : fieldLine s = .ok r f) : GoodVal f.value := by
  unfold fieldLine at h
  simp only [bind_app] at h
  split at h
  · rename_i r1 nm h1
    simp only [space0, takeTill, takeWhile, multispace0, ret] at h
    cases h
    refine ⟨takeWhile_allC _ _, ?_⟩
    have h2 := dropWhile_headNot isSpace r1
    generalize r1.dropWhile isSpace = t at h2
    cases t with
    | nil => exact .nil
    | cons c t =>
      rw [List.takeWhile_cons]
      split
      · exact .cons h2.of_cons
      · exact .nil
  · cases h
  · cases h
  · cases h

theorem fieldLine_total (s : Str) :
    (∃ e, fieldLine s = .error e) ∨ ∃ r a, fieldLine s = .ok r a ∧ r.length < s.length := by
  have h1 : (∃ e, (terminated (takeTill fun c => c == ':' || c == '\n') (char ':') : Parser Unit Str) s = .error e) ∨
      ∃ r a, (terminated (takeTill fun c => c == ':' || c == '\n') (char ':') : Parser Unit Str) s = .ok r a ∧
        r.length < s.length := by
    unfold terminated takeTill takeWhile
    simp only [bind_app]
    have hl : (s.dropWhile (fun c => !(c == ':' || c == '\n'))).length ≤ s.length :=
      List.Sublist.length_le (List.dropWhile_sublist _)
    generalize s.dropWhile (fun c => !(c == ':' || c == '\n')) = t at *
    cases t with
    | nil => left; exact ⟨_, rfl⟩
    | cons c t =>
      by_cases hc : c = ':'
      · right
        subst hc
        refine ⟨t, _, by simp [char]; rfl, ?_⟩
        simp at hl; omega
      · left; simp [char, hc]
  rcases h1 with ⟨e, h1⟩ | ⟨r, a, h1, hl⟩
  · left; unfold fieldLine; simp [h1]
  · right
    unfold fieldLine
    rw [bind_ok h1]
    simp only [space0, takeTill, takeWhile, multispace0, ret, bind_app]
    refine ⟨_, _, rfl, Nat.lt_of_le_of_lt ?_ hl⟩
    exact ((List.dropWhile_sublist _).trans ((List.dropWhile_sublist _).trans (List.dropWhile_sublist _))).length_le

/-- The splitting into fields never fails. -/
theorem getFields_ok (s : Str) : ∃ r fs, getColonFieldValueLines s = .ok r fs ∧ ∀ f ∈ fs, GoodVal f.value := by
  obtain ⟨r, fs, h⟩ := many0_ok fieldLine_total s
  exact ⟨r, fs, h, many0_forall (P := fun f => GoodVal f.value) (fun _ _ _ h => fieldLine_value h) h⟩

namespace Schema
variable {S : Schema}

/-- Every value of a parsed section comes from a text after a colon. -/
theorem fromStr_post (hS : S.Lawful) {v : Nat} {s : Str} {sec : S.Section} (h : S.fromStr v s = .ok sec)
    (k : S.Key) (x : S.Val k) (hx : sec k = some x) :
    ∃ t, GoodVal t ∧ S.parse k v t = .ok (some x) := by
  obtain ⟨r, fs, hf, hg⟩ := getFields_ok s
  unfold fromStr at h
  rw [hf] at h
  simp only at h
  split at h
  · cases h
  · rw [run_ok_iff hS] at h
    obtain ⟨_, _, h3, h4⟩ := h
    by_cases hex : ∃ f ∈ fs, f.name = S.name k
    · obtain ⟨f, hfm, hn⟩ := hex
      obtain ⟨k', hk', hp⟩ := h3 f hfm
      have := hS.inj k' k (hk'.trans hn)
      subst this
      exact ⟨f.value, hg f hfm, by rw [hp, hx]⟩
    · have := h4 k (fun f hfm hn => hex ⟨f, hfm, hn⟩)
      rw [hx] at this; cases this

/-- The lines `to_string` writes. -/
def printed (S : Schema) (v : Nat) (sec : S.Section) (k : S.Key) : Option KVLine :=
  match sec k with
  | none => none
  | some x =>
    match S.shw k v x with
    | none => none
    | some t => some ⟨S.name k, S.spacing v t, t⟩

theorem toStr_eq (v : Nat) (sec : S.Section) :
    S.toStr v sec = kvText ['\n'] (S.keys.filterMap (S.printed v sec)) := by
  unfold toStr kvText
  rw [List.map_filterMap]
  congr 1
  apply congrArg (fun f => List.filterMap f S.keys)
  funext k
  unfold fieldStr printed
  cases sec k with
  | none => rfl
  | some x =>
    simp only
    cases S.shw k v x with
    | none => rfl
    | some t => simp [KVLine.text]

/-- Generic round trip: `out` is what is read back. -/
theorem roundtrip (hS : S.Lawful) (v : Nat) (sec out : S.Section)
    (h : ∀ k x t, sec k = some x → S.shw k v x = some t → GoodVal t ∧ S.parse k v t = .ok (out k))
    (h0 : ∀ k, (∀ x, sec k = some x → S.shw k v x = none) → out k = none) :
    S.fromStr v (S.toStr v sec) = .ok out := by
  have hpr : ∀ k l, S.printed v sec k = some l →
      ∃ x t, sec k = some x ∧ S.shw k v x = some t ∧ l = ⟨S.name k, S.spacing v t, t⟩ := by
    intro k l hl
    unfold printed at hl
    split at hl
    · cases hl
    · rename_i x hx
      split at hl
      · cases hl
      · rename_i t ht
        cases hl
        exact ⟨x, t, hx, ht, rfl⟩
  rw [toStr_eq, fromStr_text_ok_iff hS (.inl rfl)]
  · refine ⟨?_, ?_, ?_⟩
    · have : ∀ ks : List S.Key, ks.Nodup →
          ((ks.filterMap (S.printed v sec)).map KVLine.key).Nodup ∧
          ∀ l ∈ ks.filterMap (S.printed v sec), ∃ k ∈ ks, l.key = S.name k := by
        intro ks
        induction ks with
        | nil => intro _; simp
        | cons k ks ih =>
          intro hnd
          rw [List.nodup_cons] at hnd
          obtain ⟨i1, i2⟩ := ih hnd.2
          cases hk : S.printed v sec k with
          | none =>
            rw [List.filterMap_cons_none hk]
            exact ⟨i1, fun l hl => (i2 l hl).imp fun k' h' => ⟨by simp [h'.1], h'.2⟩⟩
          | some l =>
            rw [List.filterMap_cons_some hk]
            obtain ⟨x, t, _, _, rfl⟩ := hpr k l hk
            constructor
            · rw [List.map_cons, List.nodup_cons]
              refine ⟨?_, i1⟩
              rw [List.mem_map]
              rintro ⟨l', hl', e⟩
              obtain ⟨k', hk', e'⟩ := i2 l' hl'
              have := hS.inj k' k (by rw [← e', e])
              subst this
              exact hnd.1 hk'
            · intro l' hl'
              rcases List.mem_cons.1 hl' with rfl | hl'
              · exact ⟨k, by simp, rfl⟩
              · exact (i2 l' hl').imp fun k' h' => ⟨by simp [h'.1], h'.2⟩
      exact (this S.keys hS.nodup).1
    · intro l hl
      obtain ⟨k, _, hk⟩ := List.mem_filterMap.1 hl
      obtain ⟨x, t, hx, ht, rfl⟩ := hpr k l hk
      exact ⟨k, rfl, (h k x t hx ht).2⟩
    · intro k hk
      apply h0
      intro x hx
      cases ht : S.shw k v x with
      | none => rfl
      | some t =>
        exfalso
        refine hk ⟨S.name k, S.spacing v t, t⟩ (List.mem_filterMap.2 ⟨k, hS.all k, ?_⟩) rfl
        unfold printed
        simp [hx, ht]
  · intro l hl
    obtain ⟨k, _, hk⟩ := List.mem_filterMap.1 hl
    obtain ⟨x, t, hx, ht, rfl⟩ := hpr k l hk
    have hg := (h k x t hx ht).1
    exact ⟨hS.nameOK k, hS.nameHead k, hS.spacing v t, hg.chars, hg.head⟩

/-- The fields of `sec` that version `v` writes. -/
def written (S : Schema) (v : Nat) (sec : S.Section) : S.Section := fun k =>
  match sec k with
  | none => none
  | some x => if (S.shw k v x).isSome then some x else none

/-- Printing only depends on the written fields. -/
theorem toStr_written (v : Nat) (sec : S.Section) : S.toStr v (S.written v sec) = S.toStr v sec := by
  unfold toStr
  congr 1
  apply congrArg (fun f => List.filterMap f S.keys)
  funext k
  unfold fieldStr written
  cases hx : sec k with
  | none => rfl
  | some x =>
    simp only
    cases ht : S.shw k v x with
    | none => simp
    | some t => simp [ht]

/-- What a schema must satisfy so that parse, print, parse is stable. -/
def Stable (S : Schema) : Prop := ∀ k v s (x : S.Val k) t, GoodVal s → S.parse k v s = .ok (some x) →
  S.shw k v x = some t → GoodVal t ∧ S.parse k v t = .ok (some x)

/-- Generic stability. -/
theorem stable (hS : S.Lawful) (hst : S.Stable) {v : Nat} {s : Str} {sec : S.Section}
    (h : S.fromStr v s = .ok sec) :
    S.fromStr v (S.toStr v sec) = .ok (S.written v sec) := by
  apply roundtrip hS
  · intro k x t hx ht
    obtain ⟨u, hu, hp⟩ := fromStr_post hS h k x hx
    obtain ⟨hg, hp'⟩ := hst k v u x t hu hp ht
    refine ⟨hg, ?_⟩
    unfold written
    simp [hx, ht, hp']
  · intro k hk
    unfold written
    cases hx : sec k with
    | none => rfl
    | some x => simp [hk x hx]

/-- No panic as long as no field parser panics. -/
theorem run_no_panic {v : Nat} {P : Str → Prop} (hp : ∀ k s, P s → S.parse k v s ≠ .panic) :
    ∀ (fs : List FieldLine) (n : Nat) (seen : List Str) (sec : S.Section), (∀ f ∈ fs, P f.value) →
    S.run v fs n seen sec ≠ .panic := by
  intro fs
  induction fs with
  | nil => intro n seen sec _ h; cases h
  | cons f fs ih =>
    intro n seen sec hP
    rw [run]
    split
    · intro h; cases h
    · split
      · intro h; cases h
      · rename_i k _
        cases hq : S.parse k v f.value with
        | err e => intro h; cases h
        | panic => exact absurd hq (hp k _ (hP f (by simp)))
        | ok x => exact ih _ _ _ (fun g hg => hP g (by simp [hg]))

theorem fromStr_no_panic {v : Nat} (hp : ∀ k s, GoodVal s → S.parse k v s ≠ .panic) (s : Str) :
    S.fromStr v s ≠ .panic := by
  obtain ⟨r, fs, hf, hg⟩ := getFields_ok s
  unfold fromStr
  rw [hf]
  simp only
  split
  · intro h; cases h
  · exact run_no_panic hp _ _ _ _ hg

end Schema
end Osu
