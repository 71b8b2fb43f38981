import Verif.F64

/-!
# `intl_pluralrules/src/operands.rs`
-/

namespace Verif

/-- operands.rs:58-71 (`PluralOperands`).  `i`, `f`, `t` are `u64` and `v`, `w` are `usize` in the code; that the
values stay in range is a theorem about the conversions. -/
structure PluralOperands where
  n : Flt
  i : Nat
  v : Nat
  w : Nat
  f : Nat
  t : Nat
  deriving DecidableEq, Repr

/-- The two error texts of operands.rs:83,96,103 and the one of :151. -/
inductive OpsErr where
  | incorrectNumber
  | couldNotConvert
  | tooBig
  deriving DecidableEq, Repr

/-- The error texts, operands.rs:83, :96, :103, :151. -/
def OpsErr.text : OpsErr → Str
  | .incorrectNumber => c!"Incorrect number passed!"
  | .couldNotConvert => c!"Could not convert string to integer!"
  | .tooBig => c!"Number too big"

namespace PluralOperands

/-- `str::find('.')` together with the two slices at operands.rs:91-93: what is before and after the first point. -/
def splitPoint : Str → Option (Str × Str)
  | [] => none
  | c :: t =>
    if c == '.' then some ([], t)
    else match splitPoint t with
      | some (a, b) => some (c :: a, b)
      | none => none

/-- `str::trim_end_matches('0')`, operands.rs:98. -/
def trimEndZeros (s : Str) : Str := (s.reverse.dropWhile (· == '0')).reverse

/-- operands.rs:77-81: the text without one leading minus sign. -/
def absStr : Str → Str
  | [] => []
  | c :: t => if c = '-' then t else c :: t

/-- operands.rs:73-122 (`TryFrom<&str>`).  `str::len` counts bytes; here it counts characters, which is the same
because `f64::from_str` has accepted the text before (only ASCII characters occur in float literals). -/
def tryFromStr (input : Str) : Except OpsErr PluralOperands :=
  let absStr := absStr input
  match Flt.fromStr b64 absStr with
  | none => .error .incorrectNumber
  | some absoluteValue =>
    match splitPoint absStr with
    | some (intStr, decStr) =>
      match parseUnsigned 64 intStr with
      | none => .error .couldNotConvert
      | some integerDigits =>
        let backtrace := trimEndZeros decStr
        match parseUnsigned 64 decStr with
        | none => .error .couldNotConvert
        | some fractionDigits0 =>
          .ok { n := absoluteValue
                i := integerDigits
                v := decStr.length
                w := backtrace.length
                f := fractionDigits0
                t := (parseUnsigned 64 backtrace).getD 0 }
    | none =>
      .ok { n := absoluteValue, i := absoluteValue.toU64 b64, v := 0, w := 0, f := 0, t := 0 }

/-- operands.rs:124-143 (`impl_integer_type!`, used for `u8 u16 u32 u64 usize` at :183).  `input as u64` does not
change the value, since all these types fit. -/
def fromUnsigned (input : Nat) : PluralOperands :=
  { n := Flt.ofNat b64 input, i := input, v := 0, w := 0, f := 0, t := 0 }

/-- `input as isize` on a target with `bits`-bit pointers: two's-complement wrap (operands.rs:151). -/
def asIsize (bits : Nat) (x : Int) : Int := Int.bmod x (2 ^ bits)

/-- operands.rs:145-166 (`impl_signed_integer_type!`, used for `i8 i16 i32 i64 isize` at :184): `checked_abs` of the
value as `isize`, which fails for the minimum of `isize`. -/
def tryFromSigned (bits : Nat) (input : Int) : Except OpsErr PluralOperands :=
  let y := asIsize bits input
  if y = -(2 ^ (bits - 1)) then .error .tooBig
  else .ok { n := Flt.ofNat b64 y.natAbs, i := y.natAbs, v := 0, w := 0, f := 0, t := 0 }

/-- operands.rs:168-181 (`impl_convert_type!`) for `String`: `to_string` of a `String` is the string itself. -/
def tryFromString (input : Str) : Except OpsErr PluralOperands := tryFromStr input

end PluralOperands
end Verif
