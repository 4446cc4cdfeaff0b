/-
The outcome of a parser with the error reduced to its first context label, which is all the conversion of
`verbose_error_to_error!` looks at. The outcome of a combinator is a function of the outcomes of its parts.
-/
import Verif.Proof.Pieces

namespace Osu

/-- A parser result with errors reduced to their first label. -/
inductive Out (γ α : Type) where
  | ok (rest : Str) (a : α)
  | soft (c : Option γ)
  | hard (c : Option γ)
  | panic

/-- The outcome of a result. -/
def PRes.out {γ α : Type} : PRes γ α → Out γ α
  | .ok r a => .ok r a
  | .error e => .soft (firstCtx e)
  | .failure e => .hard (firstCtx e)
  | .panic => .panic

namespace Out
variable {γ α β ε : Type}

/-- Going on after success. -/
def seq (o : Out γ α) (f : Str → α → Out γ β) : Out γ β :=
  match o with
  | ok r a => f r a
  | soft c => soft c
  | hard c => hard c
  | panic => panic

/-- A label for errors without one. -/
def label (c : γ) : Out γ α → Out γ α
  | soft none => soft (some c)
  | hard none => hard (some c)
  | o => o

/-- Errors become failures. -/
def cut : Out γ α → Out γ α
  | soft c => hard c
  | o => o

/-- Another try after an error. -/
def orElse (o : Out γ α) (p : Out γ α) : Out γ α :=
  match o with
  | soft _ => p
  | o => o

/-- The result of the conversion. -/
def toRes : Out γ α → Res γ α
  | ok _ a => .ok a
  | soft (some c) => .err c
  | hard (some c) => .err c
  | soft none => .panic
  | hard none => .panic
  | panic => .panic

/-- The outcome of reading a field. -/
def ofRes (r : Str) : Res ε α → Out γ α
  | .ok a => ok r a
  | .err _ => soft none
  | .panic => panic

@[simp] theorem seq_ok (r : Str) (a : α) (f : Str → α → Out γ β) : (ok r a).seq f = f r a := rfl
@[simp] theorem seq_soft (c : Option γ) (f : Str → α → Out γ β) : (soft c : Out γ α).seq f = soft c := rfl
@[simp] theorem seq_hard (c : Option γ) (f : Str → α → Out γ β) : (hard c : Out γ α).seq f = hard c := rfl
@[simp] theorem seq_panic (f : Str → α → Out γ β) : (panic : Out γ α).seq f = panic := rfl
@[simp] theorem label_ok (c : γ) (r : Str) (a : α) : (ok r a : Out γ α).label c = ok r a := rfl
@[simp] theorem label_none (c : γ) : (soft none : Out γ α).label c = soft (some c) := rfl
@[simp] theorem label_some (c d : γ) : (soft (some d) : Out γ α).label c = soft (some d) := rfl
@[simp] theorem label_hnone (c : γ) : (hard none : Out γ α).label c = hard (some c) := rfl
@[simp] theorem label_hsome (c d : γ) : (hard (some d) : Out γ α).label c = hard (some d) := rfl
@[simp] theorem label_panic (c : γ) : (panic : Out γ α).label c = panic := rfl
@[simp] theorem cut_ok (r : Str) (a : α) : (ok r a : Out γ α).cut = ok r a := rfl
@[simp] theorem cut_soft (c : Option γ) : (soft c : Out γ α).cut = hard c := rfl
@[simp] theorem cut_hard (c : Option γ) : (hard c : Out γ α).cut = hard c := rfl
@[simp] theorem cut_panic : (panic : Out γ α).cut = panic := rfl
@[simp] theorem orElse_ok (r : Str) (a : α) (p : Out γ α) : (ok r a).orElse p = ok r a := rfl
@[simp] theorem orElse_soft (c : Option γ) (p : Out γ α) : (soft c).orElse p = p := rfl
@[simp] theorem orElse_hard (c : Option γ) (p : Out γ α) : (hard c).orElse p = hard c := rfl
@[simp] theorem orElse_panic (p : Out γ α) : (panic : Out γ α).orElse p = panic := rfl
@[simp] theorem toRes_ok (r : Str) (a : α) : (ok r a : Out γ α).toRes = .ok a := rfl
@[simp] theorem toRes_soft (c : γ) : (soft (some c) : Out γ α).toRes = .err c := rfl
@[simp] theorem toRes_hard (c : γ) : (hard (some c) : Out γ α).toRes = .err c := rfl
@[simp] theorem toRes_softNone : (soft none : Out γ α).toRes = .panic := rfl
@[simp] theorem toRes_hardNone : (hard none : Out γ α).toRes = .panic := rfl
@[simp] theorem toRes_panic : (panic : Out γ α).toRes = .panic := rfl
@[simp] theorem ofRes_ok (r : Str) (a : α) : (ofRes r (.ok a : Res ε α) : Out γ α) = ok r a := rfl
@[simp] theorem ofRes_err (r : Str) (e : ε) : (ofRes r (.err e : Res ε α) : Out γ α) = soft none := rfl
@[simp] theorem ofRes_panic (r : Str) : (ofRes r (.panic : Res ε α) : Out γ α) = panic := rfl

end Out

namespace Parser
variable {γ α β δ ε : Type}

theorem toRes_out (x : PRes γ α) : x.toRes = x.out.toRes := by
  cases x with
  | ok r a => rfl
  | panic => rfl
  | error e => simp only [PRes.toRes, PRes.out]; cases firstCtx e <;> rfl
  | failure e => simp only [PRes.toRes, PRes.out]; cases firstCtx e <;> rfl

theorem firstCtx_snoc_ctx (e : VErr γ) (s : Str) (c : γ) :
    firstCtx (e ++ [(s, .ctx c)]) = some ((firstCtx e).getD c) := by
  induction e with
  | nil => rfl
  | cons x e ih => obtain ⟨i, k⟩ := x; cases k <;> simp [firstCtx, ih]

theorem firstCtx_snoc_nom (e : VErr γ) (s : Str) (k : NomKind) : firstCtx (e ++ [(s, .nom k)]) = firstCtx e := by
  induction e with
  | nil => rfl
  | cons x e ih => obtain ⟨i, k⟩ := x; cases k <;> simp [firstCtx, ih]

theorem out_bind (p : Parser γ α) (f : α → Parser γ β) (s : Str) :
    (p.bind f s).out = (p s).out.seq fun r a => (f a r).out := by
  unfold Parser.bind; cases p s <;> rfl

theorem out_ret (a : α) (s : Str) : (ret a s : PRes γ α).out = .ok s a := rfl

theorem out_preceded (p : Parser γ α) (q : Parser γ β) (s : Str) :
    (preceded p q s).out = (p s).out.seq fun r _ => (q r).out := out_bind p _ s

theorem out_pair (p : Parser γ α) (q : Parser γ β) (s : Str) :
    (pair p q s).out = (p s).out.seq fun r a => (q r).out.seq fun r' b => .ok r' (a, b) := by
  unfold pair; simp only [out_bind, out_ret]

theorem out_terminated (p : Parser γ α) (q : Parser γ β) (s : Str) :
    (terminated p q s).out = (p s).out.seq fun r a => (q r).out.seq fun r' _ => .ok r' a := by
  unfold terminated; simp only [out_bind, out_ret]

theorem out_map (p : Parser γ α) (f : α → β) (s : Str) :
    (p.map f s).out = (p s).out.seq fun r a => .ok r (f a) := by
  unfold Parser.map; cases p s <;> rfl

theorem out_mapP (p : Parser γ α) (f : α → Option β) (s : Str) :
    (p.mapP f s).out = (p s).out.seq fun r a => match f a with | some b => .ok r b | none => .panic := by
  unfold Parser.mapP; cases p s with
  | ok r a => simp only [PRes.out, Out.seq_ok]; cases f a <;> rfl
  | _ => rfl

theorem out_mapRes (p : Parser γ α) (f : α → Res ε β) (s : Str) :
    (mapRes p f s).out = (p s).out.seq fun r a => Out.ofRes r (f a) := by
  unfold mapRes; cases p s with
  | ok r a => simp only [PRes.out, Out.seq_ok]; cases f a <;> rfl
  | _ => rfl

theorem out_mapOpt (p : Parser γ α) (f : α → Option β) (s : Str) :
    (mapOpt p f s).out = (p s).out.seq fun r a => match f a with | some b => .ok r b | none => .soft none := by
  unfold mapOpt; cases p s with
  | ok r a => simp only [PRes.out, Out.seq_ok]; cases f a <;> rfl
  | _ => rfl

theorem out_verify (p : Parser γ α) (f : α → Bool) (s : Str) :
    (verify p f s).out = (p s).out.seq fun r a => if f a then .ok r a else .soft none := by
  unfold verify; cases p s with
  | ok r a => simp only [PRes.out, Out.seq_ok]; cases f a <;> rfl
  | _ => rfl

theorem out_peek (p : Parser γ α) (s : Str) : (peek p s).out = (p s).out.seq fun _ a => .ok s a := by
  unfold peek; cases p s <;> rfl

theorem out_context (c : γ) (p : Parser γ α) (s : Str) : (context c p s).out = (p s).out.label c := by
  unfold context
  cases p s with
  | ok r a => rfl
  | panic => rfl
  | error e => simp only [PRes.out, firstCtx_snoc_ctx]; cases firstCtx e <;> rfl
  | failure e => simp only [PRes.out, firstCtx_snoc_ctx]; cases firstCtx e <;> rfl

theorem out_cut (p : Parser γ α) (s : Str) : (cut p s).out = (p s).out.cut := by
  unfold cut; cases p s <;> rfl

theorem out_altAux (e : VErr γ) (s : Str) (p : Parser γ α) (ps : List (Parser γ α)) :
    (altAux e s (p :: ps)).out = if ps = [] then (p s).out else (p s).out.orElse (alt ps s).out := by
  unfold altAux
  cases hp : p s with
  | error e' =>
    cases ps with
    | nil => simp [altAux, PRes.out, firstCtx_snoc_nom]
    | cons q qs =>
      simp only [PRes.out, Out.orElse_soft, reduceCtorEq, if_false, alt]
      unfold altAux
      rfl
  | _ => cases ps <;> rfl

theorem out_alt_one (p : Parser γ α) (s : Str) : (alt [p] s).out = (p s).out := by
  unfold alt; rw [out_altAux]; rfl

theorem out_alt_cons (p q : Parser γ α) (ps : List (Parser γ α)) (s : Str) :
    (alt (p :: q :: ps) s).out = (p s).out.orElse (alt (q :: ps) s).out := by
  show (altAux _ _ _).out = _; rw [out_altAux]; rfl

theorem out_guardP (b : Bool) (s : Str) : (guardP b s : PRes γ Unit).out = if b then .ok s () else .soft none := by
  unfold guardP; cases b <;> rfl

theorem out_rest (s : Str) : (rest s : PRes γ Str).out = .ok [] s := rfl

theorem out_fail (s : Str) : (fail s : PRes γ α).out = .soft none := rfl

theorem out_eof (s : Str) : (eof s : PRes γ Str).out = if s = [] then .ok [] [] else .soft none := by
  cases s <;> rfl

theorem out_restType (f : Str → Res ε α) (s : Str) : (restType f s : PRes γ α).out = Out.ofRes [] (f s) := by
  unfold restType; rw [out_mapRes, out_rest]; rfl

theorem out_tag (t s : Str) :
    (tag t s : PRes γ Str).out = if t.isPrefixOf s then .ok (s.drop t.length) t else .soft none := by
  unfold tag; split <;> rfl

theorem dropWhile_nil {f : Char → Bool} {s : Str} : s.dropWhile f = [] ↔ s.all f = true := by
  induction s with
  | nil => simp
  | cons c s ih =>
    rw [List.dropWhile_cons, List.all_cons]
    cases f c <;> simp [ih]

theorem out_nothing (s : Str) : (nothing s : PRes γ Str).out = if blanks s then .ok [] [] else .soft none := by
  have : (nothing s : PRes γ Str).out = (eof (s.dropWhile isSpace) : PRes γ Str).out := rfl
  rw [this, out_eof]
  simp only [dropWhile_nil]
  rfl

/-! On pieces. -/

theorem out_comma_nil : (comma (preC ',' []) : PRes γ Str).out = .soft none := rfl

theorem out_comma_cons (q : Str) (qs : List Str) :
    (comma (preC ',' (q :: qs)) : PRes γ Str).out = .ok (q ++ preC ',' qs) [','] := by
  rw [preC_cons]; unfold comma; rw [out_tag]; simp [List.isPrefixOf]

theorem out_commaField {q : Str} {qs : List Str} (h : NoC ',' q) :
    (commaField (q ++ preC ',' qs) : PRes γ Str).out = .ok (preC ',' qs) q := by
  rw [commaField_pieces h]; rfl

theorem out_commaFieldType (f : Str → Res ε α) {q : Str} {qs : List Str} (h : NoC ',' q) :
    (commaFieldType f (q ++ preC ',' qs) : PRes γ α).out = Out.ofRes (preC ',' qs) (f q) := by
  unfold commaFieldType; rw [out_mapRes, out_commaField h]; rfl

theorem piece_join (q : Str) (qs : List Str) : q ++ preC ',' qs = join [','] (q :: qs) := by rw [join_eq_preC]

end Parser
end Osu
