/-
Integer parsing and printing of Rust's standard library (`FromStr`/`Display` for i32, u8, u32, usize).
-/
import Verif.Basic.Res

namespace Osu

/-- `std::num::IntErrorKind` (the kinds decimal parsing can produce). -/
inductive IntErr where
  | empty | invalidDigit | posOverflow | negOverflow
  deriving DecidableEq, Repr

/-- ASCII decimal digit value (`char::to_digit(10)`). -/
def digitVal (c : Char) : Option Nat :=
  if 48 ≤ c.toNat ∧ c.toNat ≤ 57 then some (c.toNat - 48) else none

/-- Digit loop of `from_str_radix` with overflow kind `ov` and largest magnitude `max`. At each
character the digit is checked first, then the multiplication, then the addition. -/
def parseDigits (ov : IntErr) (max : Nat) : Nat → Str → Res IntErr Nat
  | acc, [] => .ok acc
  | acc, c :: s =>
    match digitVal c with
    | none => .err .invalidDigit
    | some d => if max < acc * 10 + d then .err ov else parseDigits ov max (acc * 10 + d) s

/-- `from_str_radix(_, 10)` of an unsigned type with maximum `max`: empty text, a lone sign, an optional
`+`, then digits (`-` is an invalid digit). -/
def parseUnsigned (max : Nat) (s : Str) : Res IntErr Nat :=
  match s with
  | [] => .err .empty
  | c :: r =>
    if (c = '+' ∨ c = '-') ∧ r = [] then .err .invalidDigit
    else if c = '+' then parseDigits .posOverflow max 0 r
    else parseDigits .posOverflow max 0 s

/-- `from_str_radix(_, 10)` of a signed type with range `-(max+1) ..= max`. -/
def parseSigned (max : Nat) (s : Str) : Res IntErr Int :=
  match s with
  | [] => .err .empty
  | c :: r =>
    if (c = '+' ∨ c = '-') ∧ r = [] then .err .invalidDigit
    else if c = '+' then (parseDigits .posOverflow max 0 r).bind fun n => .ok (n : Int)
    else if c = '-' then (parseDigits .negOverflow (max + 1) 0 r).bind fun n => .ok (-(n : Int))
    else (parseDigits .posOverflow max 0 s).bind fun n => .ok (n : Int)

/-- `str::parse::<i32>` (`Integer`, src/osu_file/types.rs:12). -/
def parseI32 (s : Str) : Res IntErr Int32 :=
  (parseSigned 2147483647 s).bind fun n => .ok (Int32.ofInt n)

/-- `str::parse::<u8>`. -/
def parseU8 (s : Str) : Res IntErr UInt8 :=
  (parseUnsigned 255 s).bind fun n => .ok (UInt8.ofNat n)

/-- `str::parse::<u32>`. -/
def parseU32 (s : Str) : Res IntErr UInt32 :=
  (parseUnsigned 4294967295 s).bind fun n => .ok (UInt32.ofNat n)

/-- `str::parse::<usize>` (64 bit). -/
def parseUsize (s : Str) : Res IntErr UInt64 :=
  (parseUnsigned 18446744073709551615 s).bind fun n => .ok (UInt64.ofNat n)

/-- The decimal digit character of `d < 10`. -/
def digitChar (d : Nat) : Char := Char.ofNat (48 + d)

/-- Decimal digits with fuel; `fuel ≥ n` is always enough. -/
def natToStrF : Nat → Nat → Str
  | 0, n => [digitChar (n % 10)]
  | f + 1, n => if n < 10 then [digitChar n] else natToStrF f (n / 10) ++ [digitChar (n % 10)]

/-- `Display` of an unsigned integer. -/
def natToStr (n : Nat) : Str := natToStrF n n

/-- `Display` of a signed integer. -/
def intToStr (n : Int) : Str := if n < 0 then '-' :: natToStr n.natAbs else natToStr n.natAbs

/-- `Display` of `i32`. -/
def i32ToStr (n : Int32) : Str := intToStr n.toInt

/-- `Display` of `u8`. -/
def u8ToStr (n : UInt8) : Str := natToStr n.toNat

/-- `Display` of `u32`. -/
def u32ToStr (n : UInt32) : Str := natToStr n.toNat

/-- `Display` of `usize`. -/
def usizeToStr (n : UInt64) : Str := natToStr n.toNat

/-- Errors of `parse_zero_one_bool` (src/helper/mod.rs:34-40). -/
inductive ZeroOneErr where
  | parseInt (e : IntErr)
  | invalidValue
  deriving DecidableEq, Repr

/-- `parse_zero_one_bool` (src/helper/mod.rs:24-32). The match on `0`/`1` makes `value` an `i32`. -/
def parseZeroOneBool (s : Str) : Res ZeroOneErr Bool :=
  match parseI32 s with
  | .ok n => if n = 0 then .ok false else if n = 1 then .ok true else .err .invalidValue
  | .err e => .err (.parseInt e)
  | .panic => .panic

/-- `(b as u8).to_string()` (src/helper/macros.rs:98). -/
def boolToStr (b : Bool) : Str := if b then ['1'] else ['0']

/-- `nth_bit_state_i64` (src/helper/mod.rs:20-22) applied to an `i32` widened to `i64`:
arithmetic shift right, then lowest bit. -/
def nthBit (n : Int32) (k : Nat) : Bool := (n.toInt / (2 ^ k : Int)) % 2 == 1

end Osu
