import Lean.Elab.Term
import Lean.ToExpr

/-!
# Text and number parsing from `std`

Rust `&str` is modelled as a list of Unicode scalar values.  None of this file's functions are in /repo: they are the
`std` functions that the three crates call, and each comment names the call sites.
-/

namespace Verif

/-- A Rust `&str`. -/
abbrev Str := List Char

open Lean Elab Term in
/-- `c!"abc"` is the list literal `['a', 'b', 'c']`, so that the kernel computes on text without decoding UTF-8. -/
elab:max "c!" s:str : term => return toExpr s.getString.toList

/-- `char::is_whitespace` (Unicode `White_Space`); used through `str::trim` at
cldr_pluralrules_parser/src/parser.rs:177,181. -/
def isWhitespace (c : Char) : Bool :=
  let n := c.toNat
  (9 ≤ n && n ≤ 13) || n == 0x20 || n == 0x85 || n == 0xA0 || n == 0x1680 || (0x2000 ≤ n && n ≤ 0x200A) ||
    n == 0x2028 || n == 0x2029 || n == 0x202F || n == 0x205F || n == 0x3000

/-- `str::trim`; parser.rs:177,181. -/
def trim (s : Str) : Str :=
  ((s.dropWhile isWhitespace).reverse.dropWhile isWhitespace).reverse

/-- `char::is_digit(10)` / `u8::is_ascii_digit`. -/
def isDigit (c : Char) : Bool := '0'.toNat ≤ c.toNat && c.toNat ≤ '9'.toNat

/-- The value of one ASCII digit. -/
def digitVal (c : Char) : Nat := c.toNat - '0'.toNat

/-- The value of a digit string, most significant digit first. -/
def digitsVal (s : Str) : Nat := s.foldl (fun a c => a * 10 + digitVal c) 0

/-- The text without a leading `+`. -/
def stripPlus : Str → Str
  | [] => []
  | c :: t => if c = '+' then t else c :: t

/-- `uN::from_str` for an unsigned type of `bits` bits: an optional `+`, then one or more digits, and no overflow.
Call sites: `u64::from_str` at intl_pluralrules/src/operands.rs:96,103,104, `usize` at
cldr_pluralrules_parser/src/parser.rs:14.  std stops with an error at the first digit that overflows; since every
outcome of that kind is an error, the model compares the final value instead. -/
def parseUnsigned (bits : Nat) (s : Str) : Option Nat :=
  let body := stripPlus s
  if body.isEmpty then none
  else if !body.all isDigit then none
  else if digitsVal body < 2 ^ bits then some (digitsVal body) else none

/-- Whether there is a leading `-`, and the text without a leading sign. -/
def splitSign : Str → Bool × Str
  | [] => (false, [])
  | c :: t => if c = '+' then (false, t) else if c = '-' then (true, t) else (false, c :: t)

/-- `isize::from_str` for a pointer width of `bits`: an optional sign, then one or more digits, and no overflow.
Call site: `vr.parse::<isize>()` at make_pluralrules/src/parser/gen_rs.rs:40. -/
def parseSigned (bits : Nat) (s : Str) : Option Int :=
  let body := (splitSign s).2
  if body.isEmpty then none
  else if !body.all isDigit then none
  else if (splitSign s).1 then
    if digitsVal body ≤ 2 ^ (bits - 1) then some (-(digitsVal body : Int)) else none
  else if digitsVal body < 2 ^ (bits - 1) then some (digitsVal body : Int) else none

/-- Decimal digits of an unsigned integer, as `to_string` writes them. -/
def showNat (n : Nat) : Str := Nat.toDigits 10 n

end Verif
