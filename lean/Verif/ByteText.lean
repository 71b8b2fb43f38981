import Verif.Operands
import Verif.Utf8

/-!
# The conversion of texts on their bytes

`Verif.Operands` has texts as lists of characters.  A `&str` is a slice of bytes: the code cuts it at byte offsets, where an offset
inside a character is a panic, and counts bytes.  Here operands.rs:73-122 is said again for bytes, with the loops of std for
integers and their overflow checks.  `none` is a panic, or a slice that would not be UTF-8.
-/

namespace Verif.ByteText
open Verif Utf8

/-- `str::is_char_boundary` (std). -/
def isCharBoundary (s : Bytes) (i : Nat) : Bool := i == 0 || i == s.length || s[i]?.any fun b => !cont b

/-- `&s[i..j]` (std). -/
def slice (s : Bytes) (i j : Nat) : Option Bytes :=
  if i ≤ j && isCharBoundary s i && isCharBoundary s j then some ((s.take j).drop i) else none

/-- `str::find` for an ASCII character (std): the offset of the first byte that is it. -/
def find (c : UInt8) : Bytes → Option Nat
  | [] => none
  | b :: t => if b = c then some 0 else (find c t).map (· + 1)

/-- `str::trim_end_matches('0')`, operands.rs:98. -/
def trimEndZeros (s : Bytes) : Bytes := (s.reverse.dropWhile (· == 0x30)).reverse

/-- `(c as char).to_digit(10)` (std). -/
def toDigit (c : UInt8) : Option Nat := if 0x30 ≤ c.toNat && c.toNat ≤ 0x39 then some (c.toNat - 0x30) else none

/-- `checked_mul` and `checked_add` of std for an unsigned type of `bits` bits. -/
def checked (bits : Nat) (x : Nat) : Option Nat := if x < 2 ^ bits then some x else none

/-- The loop of `from_str_radix` for positive numbers (std). -/
def unsignedLoop (bits : Nat) : Nat → Bytes → Option Nat
  | result, [] => some result
  | result, c :: rest =>
    match toDigit c with
    | none => none
    | some x =>
      match checked bits (result * 10) with
      | none => none
      | some y =>
        match checked bits (y + x) with
        | none => none
        | some z => unsignedLoop bits z rest

/-- `u64::from_str` (operands.rs:96,103,104) and `usize::from_str` (cldr_pluralrules_parser/src/parser.rs:14): a sign alone is no
number, `+` is skipped. -/
def unsignedFromStr (bits : Nat) : Bytes → Option Nat
  | [] => none
  | c :: rest =>
    if (c = 0x2B || c = 0x2D) && rest.isEmpty then none
    else if c = 0x2B then unsignedLoop bits 0 rest
    else unsignedLoop bits 0 (c :: rest)

/-- `checked_mul`, `checked_add` and `checked_sub` of std for a signed type of `bits` bits. -/
def checkedSigned (bits : Nat) (x : Int) : Option Int := if -2 ^ (bits - 1) ≤ x ∧ x < 2 ^ (bits - 1) then some x else none

/-- The two loops of `from_str_radix` (std): digits are added, or subtracted for negative numbers. -/
def signedLoop (bits : Nat) (negative : Bool) : Int → Bytes → Option Int
  | result, [] => some result
  | result, c :: rest =>
    match toDigit c with
    | none => none
    | some x =>
      match checkedSigned bits (result * 10) with
      | none => none
      | some y =>
        match checkedSigned bits (if negative then y - x else y + x) with
        | none => none
        | some z => signedLoop bits negative z rest

/-- `isize::from_str` (make_pluralrules/src/parser/gen_rs.rs:40). -/
def signedFromStr (bits : Nat) : Bytes → Option Int
  | [] => none
  | c :: rest =>
    if (c = 0x2B || c = 0x2D) && rest.isEmpty then none
    else if c = 0x2B then signedLoop bits false 0 rest
    else if c = 0x2D then signedLoop bits true 0 rest
    else signedLoop bits false 0 (c :: rest)

/-- operands.rs:73-122 (`TryFrom<&str>`) on the bytes of the text. -/
def tryFromStr (input : Bytes) : Option (Except OpsErr PluralOperands) :=
  match if input.head? = some 0x2D then slice input 1 input.length else slice input 0 input.length with
  | none => none
  | some absStr =>
    match decode absStr with
    | none => none
    | some text =>
      match Flt.fromStr b64 text with
      | none => some (.error .incorrectNumber)
      | some absoluteValue =>
        match find 0x2E absStr with
        | none => some (.ok { n := absoluteValue, i := absoluteValue.toU64 b64, v := 0, w := 0, f := 0, t := 0 })
        | some decPos =>
          match slice absStr 0 decPos, slice absStr (decPos + 1) absStr.length with
          | some intStr, some decStr =>
            match unsignedFromStr 64 intStr with
            | none => some (.error .couldNotConvert)
            | some integerDigits =>
              let backtrace := trimEndZeros decStr
              match unsignedFromStr 64 decStr with
              | none => some (.error .couldNotConvert)
              | some fractionDigits0 =>
                some (.ok { n := absoluteValue
                            i := integerDigits
                            v := decStr.length
                            w := backtrace.length
                            f := fractionDigits0
                            t := (unsignedFromStr 64 backtrace).getD 0 })
          | _, _ => none

end Verif.ByteText
