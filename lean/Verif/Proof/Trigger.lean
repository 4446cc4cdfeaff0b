/-
Trigger types: reading what was printed, and what reading can produce.
-/
import Verif.Spec.Cmds
import Verif.Proof.Comb
import Verif.Proof.Str

namespace Osu
namespace SB
variable [UniLib]

/-- An upper case letter or digit followed by other characters. -/
def Word (w : Str) : Prop := ∃ c r, w = c :: r ∧ UniLib.upperNum c = true ∧ ∀ d ∈ r, UniLib.upperNum d = false

namespace TriggerType

theorem fieldsAux_append (b r t : Str) (h : ∀ d ∈ r, UniLib.upperNum d = false) :
    fieldsAux b (r ++ t) = fieldsAux (b ++ r) t := by
  induction r generalizing b with
  | nil => simp
  | cons d r ih =>
    rw [List.cons_append, fieldsAux, h d (by simp)]
    simp only [Bool.false_eq_true, if_false]
    rw [ih _ fun x hx => h x (by simp [hx])]
    simp

theorem fieldsAux_words (b : Str) : ∀ ws : List Str, (∀ w ∈ ws, Word w) → fieldsAux b ws.flatten = b :: ws
  | [], _ => rfl
  | w :: ws, h => by
    obtain ⟨c, r, rfl, hc, hr⟩ := h w (by simp)
    simp only [List.flatten_cons, List.cons_append, fieldsAux, hc, if_true]
    rw [fieldsAux_append _ _ _ hr]
    have : [c] ++ r = c :: r := rfl
    rw [this, fieldsAux_words _ ws fun x hx => h x (by simp [hx])]

/-- The text is cut into its words. -/
theorem fields_words {w : Str} {ws : List Str} (hw : Word w) (h : ∀ x ∈ ws, Word x) :
    fields (w :: ws).flatten = w :: ws := by
  obtain ⟨c, r, rfl, _, hr⟩ := hw
  simp only [List.flatten_cons, List.cons_append, fields]
  rw [fieldsAux_append _ _ _ hr]
  exact fieldsAux_words _ ws h

/-- The fields of any text: one character and then no upper case letters or digits. -/
theorem fields_shape (s : Str) : ∀ f ∈ fields s, f = [] ∨ ∃ c r, f = c :: r ∧ ∀ d ∈ r, UniLib.upperNum d = false := by
  have aux : ∀ (s : Str) (c : Char) (r : Str), (∀ d ∈ r, UniLib.upperNum d = false) → ∀ f ∈ fieldsAux (c :: r) s,
      ∃ c' r', f = c' :: r' ∧ ∀ d ∈ r', UniLib.upperNum d = false := by
    intro s
    induction s with
    | nil => intro c r hr f hf; simp only [fieldsAux, List.mem_singleton] at hf; exact ⟨c, r, hf, hr⟩
    | cons d s ih =>
      intro c r hr f hf
      rw [fieldsAux] at hf
      split at hf
      · rcases List.mem_cons.1 hf with rfl | hf
        · exact ⟨c, r, rfl, hr⟩
        · exact ih d [] (by simp) f hf
      · rename_i hd
        refine ih c (r ++ [d]) ?_ f hf
        intro x hx
        rcases List.mem_append.1 hx with hx | hx
        · exact hr x hx
        · rw [List.mem_singleton.1 hx]; simpa using hd
  intro f hf
  cases s with
  | nil => simp only [fields, List.mem_singleton] at hf; exact .inl hf
  | cons c s => exact .inr (aux s c [] (by simp) f hf)

theorem digit_upper {c : Char} (h : (digitVal c).isSome = true) : UniLib.upperNum c = true := by
  unfold digitVal at h
  split at h
  · rename_i hc
    rw [UniLib.upperNum_ascii c (by omega)]
    simp; omega
  · cases h

/-- A number in a field has one digit. -/
theorem field_number {c : Char} {r : Str} (hr : ∀ d ∈ r, UniLib.upperNum d = false) {n : UInt64}
    (h : parseUsize (c :: r) = .ok n) : n.toNat < 10 := by
  unfold parseUsize at h
  obtain ⟨m, h1, h2⟩ := Res.bind_eq_ok'.1 h
  injection h2 with h2
  unfold parseUnsigned at h1
  simp only at h1
  have noDig : ∀ {t : Str} {acc k : Nat}, (∀ d ∈ t, UniLib.upperNum d = false) →
      parseDigits .posOverflow 18446744073709551615 acc t = .ok k → t = [] ∧ k = acc := by
    intro t acc k ht hk
    cases t with
    | nil => exact ⟨rfl, by injection hk with hk; exact hk.symm⟩
    | cons d t =>
      have := digit_upper (parseDigits_chars hk d (by simp))
      rw [ht d (by simp)] at this; cases this
  split at h1
  · cases h1
  · rename_i hne
    split at h1
    · rename_i hc
      obtain ⟨rfl, _⟩ := noDig hr h1
      exact absurd ⟨.inl hc, rfl⟩ hne
    · rw [parseDigits] at h1
      cases hd : digitVal c with
      | none => rw [hd] at h1; cases h1
      | some d =>
        rw [hd] at h1
        simp only at h1
        split at h1
        · cases h1
        · obtain ⟨rfl, rfl⟩ := noDig hr h1
          subst h2
          unfold digitVal at hd
          split at hd
          · injection hd with hd
            rw [UInt64.toNat_ofNat']
            omega
          · cases hd

omit [UniLib] in
theorem parseUsize_nil (n : UInt64) : parseUsize [] ≠ .ok n := fun h => (parseUsize_chars h).1 rfl

/-- What holds while the fields are read. -/
def Inv (i : Nat) (h : HitSound) : Prop :=
  (i = 0 → h.additionsSampleSet = none) ∧ (h.sampleSet = none → h.additionsSampleSet = none) ∧
  (i = 1 → h.sampleSet ≠ none) ∧ ∀ n, h.customSampleSet = some n → n.toNat < 10

omit [UniLib] in
theorem Inv.try3 {h h' : HitSound} {i j : Nat} {f : Str} (hf : ∀ n, parseUsize f = .ok n → n.toNat < 10)
    (hi : Inv i h) (ht : TriggerType.try3 h f = .ok (j, h')) : Inv j h' := by
  unfold TriggerType.try3 at ht
  split at ht
  · rename_i n hn
    injection ht with ht
    injection ht with h1 h2
    subst h1 h2
    refine ⟨by simp, hi.2.1, by simp, ?_⟩
    intro m hm
    injection hm with hm
    subst hm
    exact hf n hn
  · cases ht

omit [UniLib] in
theorem Inv.try2 {h h' : HitSound} {i j : Nat} {f : Str} (hf : ∀ n, parseUsize f = .ok n → n.toNat < 10)
    (hi : Inv i h) (ht : TriggerType.try2 h f = .ok (j, h')) : Inv j h' := by
  unfold TriggerType.try2 at ht
  split at ht
  · injection ht with ht
    injection ht with h1 h2
    subst h1 h2
    exact ⟨by simp, hi.2.1, by simp, hi.2.2.2⟩
  · exact Inv.try3 hf hi ht

omit [UniLib] in
theorem Inv.tryAt {h h' : HitSound} {i j : Nat} {f : Str} (hf : ∀ n, parseUsize f = .ok n → n.toNat < 10)
    (hi : Inv i h) (ht : TriggerType.tryAt i h f = .ok (j, h')) : Inv j h' := by
  unfold TriggerType.tryAt at ht
  split at ht
  · unfold try0 at ht
    split at ht
    · injection ht with ht
      injection ht with h1 h2
      subst h1 h2
      exact ⟨by simp, fun h => by (cases h), fun _ h => by (cases h), hi.2.2.2⟩
    · rename_i hn
      unfold try1 at ht
      rw [hn] at ht
      exact Inv.try2 hf hi ht
  · unfold try1 at ht
    split at ht
    · injection ht with ht
      injection ht with h1 h2
      subst h1 h2
      exact ⟨by simp, fun h => absurd h (hi.2.2.1 rfl), by simp, hi.2.2.2⟩
    · exact Inv.try2 hf hi ht
  · exact Inv.try2 hf hi ht
  · exact Inv.try3 hf hi ht
  · cases ht

omit [UniLib] in
theorem tryAll_inv {fs : List Str} (hf : ∀ f ∈ fs, ∀ n, parseUsize f = .ok n → n.toNat < 10) {i : Nat} {h h' : HitSound}
    (hi : Inv i h) (ht : tryAll i h fs = .ok h') : ∃ j, Inv j h' := by
  induction fs generalizing i h with
  | nil => injection ht with ht; subst ht; exact ⟨i, hi⟩
  | cons f fs ih =>
    rw [tryAll] at ht
    split at ht
    · rename_i j h1 h2
      exact ih (fun f hm => hf f (by simp [hm])) (hi.tryAt (hf f (by simp)) h2) ht
    · cases ht
    · cases ht

/-- Everything read can be written. -/
theorem parse_writable {s : Str} {t : TriggerType} (h : parse s = .ok t) : TriggerWritable t := by
  unfold parse at h
  simp only at h
  split at h
  · injection h with h; subst h; trivial
  · split at h
    · injection h with h; subst h; trivial
    · split at h
      · rename_i r _
        split at h
        · rename_i hs hp
          injection h with h
          subst h
          unfold parseHitSound at hp
          split at hp
          · injection hp with hp; subst hp; exact ⟨fun _ => rfl, fun n h => by cases h⟩
          · split at hp
            · cases hp
            · obtain ⟨j, hj⟩ := tryAll_inv (h := {}) (i := 0) (fs := fields r) (fun f hf n hn => by
                rcases fields_shape r f hf with rfl | ⟨c, r', rfl, hr⟩
                · exact absurd hn (parseUsize_nil n)
                · exact field_number hr hn) ⟨fun _ => rfl, fun _ => rfl, by simp, fun n h => by cases h⟩ hp
              exact ⟨hj.2.1, hj.2.2.2⟩
        · cases h
        · cases h
      · cases h

/-! ### Printing -/

theorem word_of {w : Str} (h : w.head?.any (fun c => c.toNat < 128 && ((65 ≤ c.toNat && c.toNat ≤ 90) || (48 ≤ c.toNat && c.toNat ≤ 57))) = true)
    (h' : w.tail.all (fun c => c.toNat < 128 && !((65 ≤ c.toNat && c.toNat ≤ 90) || (48 ≤ c.toNat && c.toNat ≤ 57))) = true) : Word w := by
  cases w with
  | nil => cases h
  | cons c r =>
    simp only [List.head?_cons, Option.any_some, Bool.and_eq_true, decide_eq_true_eq] at h
    refine ⟨c, r, rfl, ?_, ?_⟩
    · rw [UniLib.upperNum_ascii c h.1]; exact h.2
    · intro d hd
      rw [List.all_eq_true] at h'
      have := h' d hd
      simp only [Bool.and_eq_true, decide_eq_true_eq, Bool.not_eq_true'] at this
      rw [UniLib.upperNum_ascii d this.1]; exact this.2

theorem word_set (s : SampleSet) : Word s.shw := by cases s <;> exact word_of (by decide) (by decide)
theorem word_addition (a : Addition) : Word a.shw := by cases a <;> exact word_of (by decide) (by decide)

omit [UniLib] in
theorem usizeToStr_digit (n : UInt64) (h : n.toNat < 10) : ∃ k : Nat, k < 10 ∧ n = UInt64.ofNat k := by
  refine ⟨n.toNat, h, ?_⟩
  apply UInt64.toNat_inj.1
  rw [UInt64.toNat_ofNat']
  omega

/-- The words of a printed hit sound. -/
def words (h : HitSound) : List Str :=
  (h.sampleSet.map SampleSet.shw).toList ++ (h.additionsSampleSet.map SampleSet.shw).toList ++
  (h.addition.map Addition.shw).toList ++ (h.customSampleSet.map usizeToStr).toList

omit [UniLib] in
theorem digit_lt {k : Nat} (h : k < 10) : k = 0 ∨ k = 1 ∨ k = 2 ∨ k = 3 ∨ k = 4 ∨ k = 5 ∨ k = 6 ∨ k = 7 ∨ k = 8 ∨ k = 9 := by
  omega

theorem words_word {h : HitSound} (hw : TriggerWritable (.hitSound h)) : ∀ w ∈ words h, Word w := by
  intro w hm
  simp only [words, List.mem_append, Option.mem_toList, Option.map_eq_some_iff] at hm
  rcases hm with ((⟨s, _, rfl⟩ | ⟨s, _, rfl⟩) | ⟨s, _, rfl⟩) | ⟨n, hn, rfl⟩
  · exact word_set s
  · exact word_set s
  · exact word_addition s
  · obtain ⟨k, hk, rfl⟩ := usizeToStr_digit n (hw.2 n hn)
    rcases digit_lt hk with rfl | rfl | rfl | rfl | rfl | rfl | rfl | rfl | rfl | rfl <;>
      exact word_of (by decide) (by decide)

omit [UniLib] in
theorem words_flatten (h : HitSound) : c!"HitSound" ++ (words h).flatten = shw (.hitSound h) := by
  obtain ⟨s, a, ad, cu⟩ := h
  cases s <;> cases a <;> cases ad <;> cases cu <;> simp [words, shw, optStr]

omit [UniLib] in
theorem words_length (h : HitSound) : (words h).length ≤ 4 := by
  obtain ⟨s, a, ad, cu⟩ := h
  cases s <;> cases a <;> cases ad <;> cases cu <;> simp [words]

omit [UniLib] in
theorem tryAll_words {h : HitSound} (hw : TriggerWritable (.hitSound h)) : tryAll 0 {} (words h) = .ok h := by
  obtain ⟨s, a, ad, cu⟩ := h
  obtain ⟨h1, h2⟩ := hw
  simp only at h1 h2
  have key : ∀ k : Nat, k < 10 → ∀ i ≤ 3, ∀ h' : HitSound, tryAt i h' (usizeToStr (UInt64.ofNat k)) =
      .ok (4, { h' with customSampleSet := some (UInt64.ofNat k) }) := by
    intro k hk i hi h'
    obtain rfl | rfl | rfl | rfl : i = 0 ∨ i = 1 ∨ i = 2 ∨ i = 3 := by omega
    all_goals
      rcases digit_lt hk with rfl | rfl | rfl | rfl | rfl | rfl | rfl | rfl | rfl | rfl <;> rfl
  cases cu with
  | none =>
    cases s with
    | none => rw [h1 rfl]; cases ad with
      | none => rfl
      | some ad => cases ad <;> rfl
    | some s =>
      cases a with
      | none => cases ad with
        | none => cases s <;> rfl
        | some ad => cases s <;> cases ad <;> rfl
      | some a => cases ad with
        | none => cases s <;> cases a <;> rfl
        | some ad => cases s <;> cases a <;> cases ad <;> rfl
  | some n =>
    obtain ⟨k, hk, rfl⟩ := usizeToStr_digit n (h2 n rfl)
    have fin : ∀ i ≤ 3, ∀ h' : HitSound, tryAll i h' [usizeToStr (UInt64.ofNat k)] =
        .ok { h' with customSampleSet := some (UInt64.ofNat k) } := by
      intro i hi h'
      rw [tryAll, key k hk i hi h']; rfl
    cases s with
    | none => rw [h1 rfl]; cases ad with
      | none => exact fin 0 (by decide) _
      | some ad => cases ad <;> exact fin 3 (by decide) _
    | some s =>
      cases a with
      | none => cases ad with
        | none => cases s <;> exact fin 1 (by decide) _
        | some ad => cases s <;> cases ad <;> exact fin 3 (by decide) _
      | some a => cases ad with
        | none => cases s <;> cases a <;> exact fin 2 (by decide) _
        | some ad => cases s <;> cases a <;> cases ad <;> exact fin 3 (by decide) _

theorem parseHitSound_words {h : HitSound} (hw : TriggerWritable (.hitSound h)) :
    parseHitSound (words h).flatten = .ok h := by
  unfold parseHitSound
  have ht := tryAll_words hw
  have hword := words_word hw
  have hlen := words_length h
  cases hws : words h with
  | nil => rw [hws] at ht; injection ht with ht; rw [← ht]; rfl
  | cons w ws =>
    rw [hws] at ht hword hlen
    have hf := fields_words (hword w (by simp)) (ws := ws) fun x hx => hword x (by simp [hx])
    rw [if_neg, hf, if_neg (by omega), ht]
    intro h0
    obtain ⟨c, r, rfl, _⟩ := hword w (by simp)
    cases h0

omit [UniLib] in
theorem alnum_dig {c : Char} (h : Parser.isDig c = true) : (!isWs c && fieldChar c) = true := by
  unfold Parser.isDig digitVal at h
  split at h
  · rename_i hc
    have h1 : isWs c = false := by simp [isWs]; omega
    have h2 : fieldChar c = true := by
      unfold fieldChar
      have : ∀ d : Char, (d.toNat < 48) → (c == d) = false := by
        intro d hd
        rw [beq_eq_false_iff_ne]
        rintro rfl
        omega
      rw [this ',' (by decide), this '\n' (by decide), this '\r' (by decide)]; rfl
    rw [h1, h2]; rfl
  · cases h

omit [UniLib] in
/-- No blank, comma or line break in a printed trigger type. -/
theorem shw_chars (t : TriggerType) : AllC (fun c => !isWs c && fieldChar c) t.shw := by
  have d : ∀ w : Str, w.all (fun c => !isWs c && fieldChar c) = true → AllC (fun c => !isWs c && fieldChar c) w :=
    fun w h => by unfold AllC; rwa [List.all_eq_true] at h
  cases t with
  | passing => exact d _ (by decide)
  | failing => exact d _ (by decide)
  | hitSound h =>
    rw [← words_flatten]
    refine AllC.append (d _ (by decide)) ?_
    intro c hc
    obtain ⟨w, hw, hc⟩ := List.mem_flatten.1 hc
    simp only [words, List.mem_append, Option.mem_toList, Option.map_eq_some_iff] at hw
    rcases hw with ((⟨s, _, rfl⟩ | ⟨s, _, rfl⟩) | ⟨s, _, rfl⟩) | ⟨n, hn, rfl⟩
    · exact d s.shw (by cases s <;> decide) c hc
    · exact d s.shw (by cases s <;> decide) c hc
    · exact d s.shw (by cases s <;> decide) c hc
    · exact alnum_dig (natToStr_digits _ c hc)

omit [UniLib] in
theorem trim_noWs {s : Str} (h : ∀ c ∈ s, isWs c = false) : trim s = s :=
  trim_id (fun c r hs => h c (by rw [hs]; simp)) (fun c r hs => h c (by
    have : c ∈ s.reverse := by rw [hs]; simp
    exact List.mem_reverse.1 this))

theorem parse_shw {t : TriggerType} (hw : TriggerWritable t) : parse t.shw = .ok t := by
  have htrim : trim t.shw = t.shw := trim_noWs fun c hc => by
    have := shw_chars t c hc
    simp only [Bool.and_eq_true, Bool.not_eq_true'] at this
    exact this.1
  unfold parse
  simp only [htrim]
  cases t with
  | passing => rfl
  | failing => rfl
  | hitSound h =>
    rw [← words_flatten, if_neg, if_neg]
    · have : stripPrefix c!"HitSound" (c!"HitSound" ++ (words h).flatten) = some (words h).flatten := rfl
      rw [this]
      simp only [parseHitSound_words hw]
    · intro h0; cases h0
    · intro h0; cases h0

end TriggerType
end SB
end Osu
