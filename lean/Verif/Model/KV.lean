/-
Key/value sections: `get_colon_field_value_lines` and the `general_section!` macro.

The macro generates a struct with one `Option` field per declared field, `from_str` and `to_string`.
Here one generic model over a schema is instantiated four times (General, Editor, Metadata, Difficulty).
-/
import Verif.Basic.Nom
import Verif.Basic.Dec

namespace Osu

/-- One parsed field line `(key, ws, value, ws)` of `get_colon_field_value_lines`. -/
structure FieldLine where
  name : Str
  ws1 : Str
  value : Str
  ws2 : Str
  deriving DecidableEq, Repr

open Parser in
/-- `field_line` of `get_colon_field_value_lines` (src/parsers.rs:46-55). -/
def fieldLine : Parser Unit FieldLine :=
  (terminated (takeTill fun c => c == ':' || c == '\n') (char ':')).bind fun name =>
  space0.bind fun ws1 =>
  (takeTill fun c => c == '\r' || c == '\n').bind fun value =>
  multispace0.bind fun ws2 =>
  ret ⟨name, ws1, value, ws2⟩

/-- `get_colon_field_value_lines` (src/parsers.rs:44-58). -/
def getColonFieldValueLines : Parser Unit (List FieldLine) := Parser.many0 fieldLine

/-- What a use of `general_section!` declares (src/helper/macros.rs:103-181, 183-234).
`keys` is the declaration order, `name` is `stringify!($field_type)`, `parse`/`shw` are the field type's
`VersionedFromStr`/`VersionedToString`, `spacing` is the text between colon and value, computed from the
version and the printed value (see `Difficulty` for why the printed value). -/
structure Schema where
  Key : Type
  [dec : DecidableEq Key]
  keys : List Key
  name : Key → Str
  Val : Key → Type
  Err : Type
  parse : (k : Key) → (version : Nat) → Str → Res Err (Option (Val k))
  shw : (k : Key) → (version : Nat) → Val k → Option Str
  spacing : (version : Nat) → (value : Str) → Str

instance (S : Schema) : DecidableEq S.Key := S.dec

/-- The generated section struct: one optional value per field. -/
def Schema.Section (S : Schema) := (k : S.Key) → Option (S.Val k)

/-- Section errors common to all four `ParseError` types; `field` wraps the errors of field values. -/
inductive KVErr (E : Type) where
  | invalidColonSet
  | duplicateField
  | invalidKey
  | field (e : E)
  deriving DecidableEq, Repr

namespace Schema
variable (S : Schema)

/-- `$section_name::new()` (src/helper/macros.rs:115-120). -/
def empty : S.Section := fun _ => none

/-- `section.$field = value`. -/
def set (sec : S.Section) (k : S.Key) (v : Option (S.Val k)) : S.Section := fun k' =>
  if h : k' = k then h ▸ v else sec k'

/-- The `match name { stringify!($field_type) => ... }` (src/helper/macros.rs:142-149). -/
def lookup (name : Str) : Option S.Key := S.keys.find? (fun k => S.name k == name)

/-- The loop over the field lines (src/helper/macros.rs:134-153); `seen` is `parsed_fields`. -/
def run (version : Nat) : List FieldLine → (line : Nat) → (seen : List Str) → S.Section →
    Res (LErr (KVErr S.Err)) S.Section
  | [], _, _, sec => .ok sec
  | f :: fs, line, seen, sec =>
    if f.name ∈ seen then .err ⟨line, .duplicateField⟩
    else match S.lookup f.name with
      | none => .err ⟨line, .invalidKey⟩
      | some k =>
        match S.parse k version f.value with
        | .err e => .err ⟨line, .field e⟩
        | .panic => .panic
        | .ok v => run version fs (line + (lines f.ws2).length) (seen ++ [f.name]) (S.set sec k v)

/-- Generated `from_str` (src/helper/macros.rs:122-156). The `.unwrap()` on the `many0` result is a
panic if it fails. The result is always `Ok(Some(_))`, the `Some` is dropped here. -/
def fromStr (version : Nat) (s : Str) : Res (LErr (KVErr S.Err)) S.Section :=
  match getColonFieldValueLines s with
  | .ok rest fields =>
    if trim rest ≠ [] then
      .err ⟨(fields.map fun f => (lines f.ws2).length).sum, .invalidColonSet⟩
    else S.run version fields 0 [] S.empty
  | _ => .panic

/-- The printed line of one field, if any (src/helper/macros.rs:162-168). -/
def fieldStr (version : Nat) (sec : S.Section) (k : S.Key) : Option Str :=
  match sec k with
  | none => none
  | some x =>
    match S.shw k version x with
    | none => none
    | some t => some (S.name k ++ [':'] ++ S.spacing version t ++ t)

/-- Generated `to_string` (src/helper/macros.rs:158-172); always `Some`. -/
def toStr (version : Nat) (sec : S.Section) : Str :=
  join ['\n'] (S.keys.filterMap (S.fieldStr version sec))

end Schema

end Osu
