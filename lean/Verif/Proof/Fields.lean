/-
Field types of the key/value sections: bookmarks, tags, decimals, booleans.
-/
import Verif.Model.Metadata
import Verif.Model.Editor
import Verif.Model.Difficulty
import Verif.Proof.Sep
import Verif.Proof.KV
import Verif.Proof.Num

namespace Osu
open Parser

/-! ### Decimals -/

section
variable {D : Type} [DecLib D]

/-- A decimal as the parser produces it: a canonical number, or text that is not a number. -/
def Decimal.WF : Decimal D → Prop
  | .left d => DecLib.canon d
  | .right s => (DecLib.parse s : Option D) = none

theorem Decimal.ofStr_WF (s : Str) : (Decimal.ofStr s : Decimal D).WF := by
  unfold Decimal.ofStr
  split
  · rename_i d h; exact DecLib.parse_canon h
  · rename_i h; exact h

theorem Decimal.ofStr_toStr {x : Decimal D} (h : x.WF) : Decimal.ofStr x.toStr = x := by
  unfold Decimal.ofStr
  cases x with
  | left d => simp [Decimal.toStr, DecLib.parse_shw h]
  | right s => simp only [Decimal.toStr]; rw [show DecLib.parse s = (none : Option D) from h]

/-- The printed decimal satisfies `f` if its text does. -/
def Decimal.TextOK (f : Char → Bool) : Decimal D → Prop
  | .left _ => True
  | .right s => AllC f s

theorem Decimal.toStr_chars {f : Char → Bool} (hf : ∀ c, isDecChar c = true → f c = true) {x : Decimal D}
    (h : x.WF) (ht : x.TextOK f) : AllC f x.toStr := by
  cases x with
  | left d => exact fun c hc => hf c (DecLib.shw_chars _ c hc)
  | right s => exact ht

theorem Decimal.ofStr_textOK {f : Char → Bool} {s : Str} (h : AllC f s) : (Decimal.ofStr s : Decimal D).TextOK f := by
  unfold Decimal.ofStr
  split
  · trivial
  · exact h

theorem Decimal.toStr_of_none {s : Str} (h : (DecLib.parse s : Option D) = none) :
    (Decimal.ofStr s : Decimal D).toStr = s := by
  unfold Decimal.ofStr; rw [h]; rfl

end

theorem isDecChar_cases {c : Char} (h : isDecChar c = true) :
    (48 ≤ c.toNat ∧ c.toNat ≤ 57) ∨ c = '-' ∨ c = '.' := by
  unfold isDecChar digitVal at h
  simp only [Bool.or_eq_true, beq_iff_eq] at h
  rcases h with (h | h) | h
  · left
    by_cases hc : 48 ≤ c.toNat ∧ c.toNat ≤ 57
    · exact hc
    · simp [hc] at h
  · exact .inr (.inl h)
  · exact .inr (.inr h)

/-- A character outside digits, `-`, `.` is not a decimal character. -/
theorem isDecChar_ne {c d : Char} (h : isDecChar c = true) (hd : isDecChar d = false) : c ≠ d := by
  rintro rfl; rw [h] at hd; cases hd

/-- Signed integers print with digits and `-` only. -/
theorem i32_isDecChar (n : Int32) : AllC isDecChar (i32ToStr n) := by
  intro c hc
  have := i32ToStr_chars n c hc
  unfold isIntChar at this
  unfold isDecChar
  simp only [Bool.or_eq_true] at this ⊢
  rcases this with h | h
  · exact .inl (.inl h)
  · exact .inl (.inr h)

/-! ### Text that can stand after the colon -/

theorem GoodVal.of_dec {t : Str} (h : AllC isDecChar t) : GoodVal t := by
  constructor
  · intro c hc
    have h1 := isDecChar_ne (h c hc) (d := '\r') (by decide)
    have h2 := isDecChar_ne (h c hc) (d := '\n') (by decide)
    simp [h1, h2]
  · intro c r e
    subst e
    have h1 := isDecChar_ne (h c (by simp)) (d := ' ') (by decide)
    have h2 := isDecChar_ne (h c (by simp)) (d := '\t') (by decide)
    simp [isSpace, h1, h2]

theorem GoodVal.decimal {D : Type} [DecLib D] {s : Str} (h : GoodVal s) :
    GoodVal (Decimal.ofStr s : Decimal D).toStr := by
  unfold Decimal.ofStr
  split
  · rename_i d hd
    exact .of_dec (DecLib.shw_chars _)
  · exact h

/-! ### Bookmarks -/

theorem comma_isDec : isDecChar ',' = false := by decide

theorem i32_no_comma (n : Int32) : AllC (fun d => !(d == ',')) (i32ToStr n) :=
  (i32_isDecChar n).mono fun c h => by simpa using isDecChar_ne h comma_isDec

theorem bookmarkList_join {qs : List Str} {as : List Int32} (hne : qs ≠ [])
    (hq : ∀ q ∈ qs, AllC (fun d => !(d == ',')) q) (hg : qs.map parseI32 = as.map .ok) :
    bookmarkList (join [','] qs) = .ok [] as := by
  have := sepList0_join (γ := Unit) (c := ',') (f := fun d => !(d == ',')) (by decide) hne hq hg
    (T := []) .nil .nil
  simpa [bookmarkList, comma, takeTill] using this

theorem map_parseI32 (l : List Int32) : (l.map i32ToStr).map parseI32 = l.map .ok := by
  rw [List.map_map]
  apply List.map_congr_left
  intro n _
  exact parseI32_i32ToStr n

theorem map_ok_inj {ε α : Type} {as bs : List α} (h : as.map (.ok : α → Res ε α) = bs.map .ok) : as = bs := by
  induction as generalizing bs with
  | nil => cases bs with
    | nil => rfl
    | cons _ _ => simp at h
  | cons a as ih => cases bs with
    | nil => simp at h
    | cons b bs =>
      simp only [List.map_cons, List.cons.injEq, Res.ok.injEq] at h
      rw [h.1, ih h.2]

theorem parseI32_nil : parseI32 [] = .err .empty := rfl

theorem i32_no_comma_head {b : Str} {U : Str} (hb : AllC (fun d => !(d == ',')) b)
    (hU : HeadNot (fun d => !(d == ',')) U) : (b ++ U).takeWhile (fun d => !(d == ',')) = b :=
  takeWhile_app hb hU

/-- Exact result of reading bookmarks, in terms of the pieces between commas. -/
theorem parseBookmarks_spec (s : Str) :
    (s = [] ∧ parseBookmarks s = .ok []) ∨
    (∃ as : List Int32, (splitOnC ',' s).map parseI32 = as.map .ok ∧ parseBookmarks s = .ok as) ∨
    (s ≠ [] ∧ ∃ (ps : List Str) (b : Str) (bs : List Str) (as : List Int32) (e : IntErr),
      splitOnC ',' s = ps ++ b :: bs ∧ ps.map parseI32 = as.map .ok ∧ parseI32 b = .err e ∧
      parseBookmarks s = .err (if e = .empty then .invalidCommaList else .parseInt e)) := by
  by_cases hs : s = []
  · subst hs; exact .inl ⟨rfl, by decide⟩
  right
  have hj := join_splitOnC ',' s
  have hch := splitOnC_chars ',' s
  have hne := splitOnC_ne_nil ',' s
  rcases accepted_prefix parseI32 parseI32_no_panic (splitOnC ',' s) with ⟨as, h⟩ | ⟨ps, b, bs, as, e, h1, h2, h3⟩
  · left
    refine ⟨as, h, ?_⟩
    have := bookmarkList_join hne hch h
    rw [hj] at this
    unfold parseBookmarks
    simp [this]
  · right
    refine ⟨hs, ps, b, bs, as, e, h1, h2, h3, ?_⟩
    have hb : AllC (fun d => !(d == ',')) b := hch b (by simp [h1])
    have hfin : ∀ r' : Str, r'.takeWhile (fun c => !(c == ',')) = b →
        (match parseI32 (r'.takeWhile (fun c => !(c == ','))) with
          | .ok _ => .panic
          | .panic => .panic
          | .err .empty => .err .invalidCommaList
          | .err e => .err (.parseInt e) : Res FieldErr (List Int32)) =
        .err (if e = .empty then .invalidCommaList else .parseInt e) := by
      intro r' hr'
      rw [hr', h3]
      cases e <;> rfl
    cases ps with
    | nil =>
      -- the very first piece is rejected
      have e1 : s = b ++ preC ',' bs := by
        rw [← hj, h1, List.nil_append, join_eq_preC]
      have hU : HeadNot (fun d => !(d == ',')) (preC ',' bs) := by
        have := headNot_preC (c := ',') (f := fun d => !(d == ',')) (by decide) (qs := bs) (T := []) .nil
        simpa using this
      have h4 := mapRes_err (γ := Unit) (takeWhile_ok hb hU) h3
      have h5 : bookmarkList s = .ok s [] := by
        unfold bookmarkList takeTill
        rw [sepList0_eq (mapRes_shrinks (takeWhile_shrinks _)), e1, h4]
      unfold parseBookmarks
      rw [h5]
      simp only [hs, if_false, Nat.lt_irrefl]
      exact hfin s (by rw [e1]; exact takeWhile_app hb hU)
    | cons p ps =>
      cases as with
      | nil => simp at h2
      | cons a as =>
        simp only [List.map_cons, List.cons.injEq] at h2
        have hU : HeadNot (fun d => !(d == ',')) (preC ',' bs) := by
          have := headNot_preC (c := ',') (f := fun d => !(d == ',')) (by decide) (qs := bs) (T := []) .nil
          simpa using this
        have e1 : s = p ++ (preC ',' ps ++ ',' :: (b ++ preC ',' bs)) := by
          rw [← hj, h1, List.cons_append, join_eq_preC]
          simp [preC]
        have hp : AllC (fun d => !(d == ',')) p := hch p (by simp [h1])
        have hps : ∀ q ∈ ps, AllC (fun d => !(d == ',')) q := fun q hq => hch q (by simp [h1, hq])
        have h4 := mapRes_ok (γ := Unit) (takeWhile_ok hp (headNot_preC (c := ',') (f := fun d => !(d == ',')) (by decide)
          (qs := ps) (T := ',' :: (b ++ preC ',' bs)) (.cons (by decide)))) h2.1
        have h5 : bookmarkList s = .ok (',' :: (b ++ preC ',' bs)) (a :: as) := by
          unfold bookmarkList takeTill comma
          rw [sepList0_eq (mapRes_shrinks (takeWhile_shrinks _)), e1, h4]
          simp only
          rw [sepLoop_bad (by decide) hps h2.2 hb hU h3]
        unfold parseBookmarks
        rw [h5]
        have hlen : (',' :: (b ++ preC ',' bs)).length < s.length := by
          have hpn : p ≠ [] := by
            rintro rfl
            rw [parseI32_nil] at h2; cases h2.1
          have := List.length_pos_iff.2 hpn
          rw [e1]; simp; omega
        simp only [hlen, if_true]
        simp only [reduceCtorEq, if_false]
        exact hfin _ (takeWhile_app hb hU)

theorem parseBookmarks_no_panic (s : Str) : parseBookmarks s ≠ .panic := by
  rcases parseBookmarks_spec s with ⟨_, h⟩ | ⟨as, _, h⟩ | ⟨_, _, _, _, _, _, _, _, _, h⟩ <;> rw [h] <;> intro h' <;> cases h'

theorem parseBookmarks_bookmarksToStr (l : List Int32) : parseBookmarks (bookmarksToStr l) = .ok l := by
  cases l with
  | nil => decide
  | cons n l =>
    unfold bookmarksToStr parseBookmarks
    rw [bookmarkList_join (qs := (n :: l).map i32ToStr) (as := n :: l) (by simp)
      (by intro q hq; obtain ⟨m, _, rfl⟩ := List.mem_map.1 hq; exact i32_no_comma m) (map_parseI32 _)]
    simp

theorem bookmarksToStr_good (l : List Int32) : GoodVal (bookmarksToStr l) := by
  have key : ∀ l : List Int32, AllC (fun c => isDecChar c || c == ',') (bookmarksToStr l) := by
    intro l
    unfold bookmarksToStr
    induction l with
    | nil => exact .nil
    | cons n l ih =>
      have hn : AllC (fun c => isDecChar c || c == ',') (i32ToStr n) :=
        (i32_isDecChar n).mono fun c h => by simp [h]
      cases l with
      | nil => exact hn
      | cons m l =>
        simp only [List.map_cons, join_cons_cons] at ih ⊢
        exact (hn.append (.cons (by decide) .nil)).append ih
  have hk := key l
  constructor
  · refine hk.mono fun c h => ?_
    have h1 : c ≠ '\r' := by rintro rfl; revert h; decide
    have h2 : c ≠ '\n' := by rintro rfl; revert h; decide
    simp [h1, h2]
  · intro c r e
    have h := hk c (by rw [e]; simp)
    have h1 : c ≠ ' ' := by rintro rfl; revert h; decide
    have h2 : c ≠ '\t' := by rintro rfl; revert h; decide
    simp [isSpace, h1, h2]

/-! ### Tags -/

theorem mapRes_id (p : Parser Unit Str) : mapRes p (fun s => (.ok s : Res Unit Str)) = p := by
  funext s
  unfold mapRes
  cases p s <;> rfl

/-- Tags are the pieces between blanks, for every text. -/
theorem parseTags_eq (s : Str) : parseTags s = .ok (splitOnC ' ' s) := by
  have h := sepList0_join (γ := Unit) (c := ' ') (f := fun d => !(d == ' ')) (by decide)
    (g := fun s => (.ok s : Res Unit Str)) (qs := splitOnC ' ' s) (as := splitOnC ' ' s) (splitOnC_ne_nil _ _)
    (splitOnC_chars _ _) rfl (T := []) .nil .nil
  rw [mapRes_id] at h
  simp only [List.append_nil, join_splitOnC] at h
  unfold parseTags tagList takeTill
  rw [h]

end Osu
