/-
The nom 7.1.3 combinators used by the crate, over `Str`.

`VErr` is `nom::error::VerboseError`: entries are pushed at the end, so the list is innermost first.
Parsers whose error type is `nom::error::Error` use the same type: that error is the first (innermost)
entry. nom itself is outside /repo; its documented behaviour is assumed (DESIGN.md section 3).
-/
import Verif.Basic.Num

namespace Osu

/-- `nom::error::ErrorKind` (kinds that occur). -/
inductive NomKind where
  | tag | mapRes | mapOpt | alt | many0 | separatedList | verify | eof | digit | takeUntil | fail
  deriving DecidableEq, Repr

/-- `nom::error::VerboseErrorKind`, with the context label type `γ`. -/
inductive VKind (γ : Type) where
  | ctx (c : γ)
  | char (c : Char)
  | nom (k : NomKind)
  deriving DecidableEq, Repr

/-- `nom::error::VerboseError`. -/
abbrev VErr (γ : Type) := List (Str × VKind γ)

/-- `IResult`, plus a panic raised inside the parser. -/
inductive PRes (γ α : Type) where
  | ok (rest : Str) (a : α)
  | error (e : VErr γ)
  | failure (e : VErr γ)
  | panic
  deriving DecidableEq, Repr

/-- A nom parser. -/
abbrev Parser (γ α : Type) := Str → PRes γ α

namespace Parser
variable {γ α β : Type}

/-- Sequencing; nom's `tuple`, `preceded`, ... are sequencing with the first error returned. -/
def bind (p : Parser γ α) (f : α → Parser γ β) : Parser γ β := fun s =>
  match p s with
  | .ok r a => f a r
  | .error e => .error e
  | .failure e => .failure e
  | .panic => .panic

/-- `success`. -/
def ret (a : α) : Parser γ α := fun s => .ok s a

/-- `tag`. -/
def tag (t : Str) : Parser γ Str := fun s =>
  if t.isPrefixOf s then .ok (s.drop t.length) t else .error [(s, .nom .tag)]

/-- `char`. -/
def char (c : Char) : Parser γ Char := fun s =>
  match s with
  | d :: r => if d = c then .ok r c else .error [(s, .char c)]
  | [] => .error [(s, .char c)]

/-- `take_while`. -/
def takeWhile (f : Char → Bool) : Parser γ Str := fun s => .ok (s.dropWhile f) (s.takeWhile f)

/-- `take_till`. -/
def takeTill (f : Char → Bool) : Parser γ Str := takeWhile (fun c => !f c)

/-- Find the first occurrence of `t`: text before it and text from it on. -/
def splitAt (t : Str) : Str → Option (Str × Str)
  | [] => if t.isEmpty then some ([], []) else none
  | c :: s =>
    if t.isPrefixOf (c :: s) then some ([], c :: s)
    else match splitAt t s with
      | some (a, b) => some (c :: a, b)
      | none => none

/-- `take_until`. -/
def takeUntil (t : Str) : Parser γ Str := fun s =>
  match splitAt t s with
  | some (a, b) => .ok b a
  | none => .error [(s, .nom .takeUntil)]

/-- `space0`: blanks and tabs. -/
def isSpace (c : Char) : Bool := c == ' ' || c == '\t'

/-- `multispace0`: blanks, tabs, carriage returns, line feeds. -/
def isMultispace (c : Char) : Bool := c == ' ' || c == '\t' || c == '\r' || c == '\n'

def space0 : Parser γ Str := takeWhile isSpace
def multispace0 : Parser γ Str := takeWhile isMultispace

/-- ASCII digit. -/
def isDig (c : Char) : Bool := (digitVal c).isSome

/-- `digit1`. -/
def digit1 : Parser γ Str := fun s =>
  match s.takeWhile isDig with
  | [] => .error [(s, .nom .digit)]
  | t => .ok (s.dropWhile isDig) t

/-- `eof`. -/
def eof : Parser γ Str := fun s =>
  match s with
  | [] => .ok [] []
  | _ => .error [(s, .nom .eof)]

/-- `rest`. -/
def rest : Parser γ Str := fun s => .ok [] s

/-- `fail`. -/
def fail : Parser γ α := fun s => .error [(s, .nom .fail)]

/-- `cut`: errors become failures. -/
def cut (p : Parser γ α) : Parser γ α := fun s =>
  match p s with
  | .error e => .failure e
  | r => r

/-- `context`: push the label. -/
def context (c : γ) (p : Parser γ α) : Parser γ α := fun s =>
  match p s with
  | .error e => .error (e ++ [(s, .ctx c)])
  | .failure e => .failure (e ++ [(s, .ctx c)])
  | r => r

/-- `verify`. -/
def verify (p : Parser γ α) (f : α → Bool) : Parser γ α := fun s =>
  match p s with
  | .ok r a => if f a then .ok r a else .error [(s, .nom .verify)]
  | x => x

/-- `peek`. -/
def peek (p : Parser γ α) : Parser γ α := fun s =>
  match p s with
  | .ok _ a => .ok s a
  | x => x

/-- `map_res`; the mapped function may panic. -/
def mapRes {ε : Type} (p : Parser γ α) (f : α → Res ε β) : Parser γ β := fun s =>
  match p s with
  | .ok r a =>
    match f a with
    | .ok b => .ok r b
    | .err _ => .error [(s, .nom .mapRes)]
    | .panic => .panic
  | .error e => .error e
  | .failure e => .failure e
  | .panic => .panic

/-- `map_opt`. -/
def mapOpt (p : Parser γ α) (f : α → Option β) : Parser γ β := fun s =>
  match p s with
  | .ok r a =>
    match f a with
    | some b => .ok r b
    | none => .error [(s, .nom .mapOpt)]
  | .error e => .error e
  | .failure e => .failure e
  | .panic => .panic

/-- `map`. -/
def map (p : Parser γ α) (f : α → β) : Parser γ β := fun s =>
  match p s with
  | .ok r a => .ok r (f a)
  | .error e => .error e
  | .failure e => .failure e
  | .panic => .panic

/-- `map` with a function that may panic (`none`). -/
def mapP (p : Parser γ α) (f : α → Option β) : Parser γ β := fun s =>
  match p s with
  | .ok r a =>
    match f a with
    | some b => .ok r b
    | none => .panic
  | .error e => .error e
  | .failure e => .failure e
  | .panic => .panic

/-- `verify(success(0), |_| b)`. -/
def guardP (b : Bool) : Parser γ Unit := fun s => if b then .ok s () else .error [(s, .nom .verify)]

/-- Remaining alternatives of `alt`; `prev.or(e)` is `e` for nom's error types. -/
def altAux (prev : VErr γ) (s : Str) : List (Parser γ α) → PRes γ α
  | [] => .error (prev ++ [(s, .nom .alt)])
  | p :: ps =>
    match p s with
    | .error e => altAux e s ps
    | r => r

/-- `alt`: the first alternative that does not `Error`; if all do, the last error with `Alt`. -/
def alt (ps : List (Parser γ α)) : Parser γ α := fun s => altAux [] s ps

def preceded (p : Parser γ α) (q : Parser γ β) : Parser γ β := p.bind fun _ => q
def terminated (p : Parser γ α) (q : Parser γ β) : Parser γ α := p.bind fun a => q.bind fun _ => ret a
def delimited {δ : Type} (p : Parser γ α) (q : Parser γ β) (r : Parser γ δ) : Parser γ β :=
  p.bind fun _ => q.bind fun b => r.bind fun _ => ret b
/-- `tuple((p, q))`. -/
def pair (p : Parser γ α) (q : Parser γ β) : Parser γ (α × β) :=
  p.bind fun a => q.bind fun b => ret (a, b)

/-- `many0` with fuel. nom stops with an error if the parser consumed nothing; nom parsers return a
suffix of their input, so "consumed nothing" is "not shorter". -/
def many0F (p : Parser γ α) : Nat → Parser γ (List α)
  | 0 => fun s => .error [(s, .nom .many0)]
  | n + 1 => fun s =>
    match p s with
    | .error _ => .ok s []
    | .failure e => .failure e
    | .panic => .panic
    | .ok r a =>
      if r.length < s.length then
        match many0F p n r with
        | .ok r' as => .ok r' (a :: as)
        | x => x
      else .error [(s, .nom .many0)]

/-- `many0`. -/
def many0 (p : Parser γ α) : Parser γ (List α) := fun s => many0F p (s.length + 1) s

/-- Loop of `separated_list0` after an item. -/
def sepLoopF (sep : Parser γ β) (p : Parser γ α) : Nat → Parser γ (List α)
  | 0 => fun s => .error [(s, .nom .separatedList)]
  | n + 1 => fun s =>
    match sep s with
    | .error _ => .ok s []
    | .failure e => .failure e
    | .panic => .panic
    | .ok s1 _ =>
      if s1.length < s.length then
        match p s1 with
        | .error _ => .ok s []
        | .failure e => .failure e
        | .panic => .panic
        | .ok s2 a =>
          match sepLoopF sep p n s2 with
          | .ok r as => .ok r (a :: as)
          | x => x
      else .error [(s1, .nom .separatedList)]

/-- `separated_list0`. -/
def sepList0 (sep : Parser γ β) (p : Parser γ α) : Parser γ (List α) := fun s =>
  match p s with
  | .error _ => .ok s []
  | .failure e => .failure e
  | .panic => .panic
  | .ok r a =>
    match sepLoopF sep p (s.length + 1) r with
    | .ok r' as => .ok r' (a :: as)
    | x => x

end Parser

/-- First context label in a verbose error (`verbose_error_to_error!`, src/helper/macros.rs:241-250). -/
def firstCtx {γ : Type} : VErr γ → Option γ
  | [] => none
  | (_, .ctx c) :: _ => some c
  | _ :: e => firstCtx e

/-- The conversion `From<nom::Err<VerboseError<&str>>>` generated by `verbose_error_to_error!`
(src/helper/macros.rs:236-257): the first context names the error, no context is `unreachable!`. -/
def PRes.toRes {γ α : Type} : PRes γ α → Res γ α
  | .ok _ a => .ok a
  | .error e | .failure e =>
    match firstCtx e with
    | some c => .err c
    | none => .panic
  | .panic => .panic

namespace Parser
variable {γ α : Type}

/-- `comma()` (src/parsers.rs:75-80). -/
def comma : Parser γ Str := tag [',']

/-- `comma_field()` (src/parsers.rs:82-87). -/
def commaField : Parser γ Str := takeWhile (fun c => c ≠ ',')

/-- `comma_field_type()` (src/parsers.rs:89-95) and `comma_field_versioned_type(version)`
(src/parsers.rs:97-107), with the field type's parser `f`. -/
def commaFieldType {ε : Type} (f : Str → Res ε α) : Parser γ α := mapRes commaField f

/-- `consume_rest_type()` / `consume_rest_versioned_type(version)` (src/parsers.rs:109-127). -/
def restType {ε : Type} (f : Str → Res ε α) : Parser γ α := mapRes rest f

/-- `nothing()` (src/parsers.rs:129-134). -/
def nothing : Parser γ Str := preceded space0 eof

/-- `pipe_vec_versioned_map(version)` (src/parsers.rs:60-73). -/
def pipeVec {ε : Type} (f : Str → Res ε α) : Parser γ (List α) :=
  sepList0 (tag ['|'])
    (mapRes (takeWhile fun c => !(c == '|' || c == ',' || c == '\r' || c == '\n')) f)

end Parser

/-- `.map(|v| v.unwrap())` on `Result<Option<T>, E>` (src/parsers.rs:69,105,125): `Ok(None)` panics. -/
def unwrapOpt {ε α : Type} : Res ε (Option α) → Res ε α
  | .ok (some a) => .ok a
  | .ok none => .panic
  | .err e => .err e
  | .panic => .panic

end Osu
