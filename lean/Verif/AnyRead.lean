import Verif.Operands

/-!
# The conversion of texts with any reading of floats

intl_pluralrules/src/operands.rs:73-122 over any function in the place of `f64::from_str`, which is std and not in /repo.  What std
accepts has changed (Rust 1.55), and so could how it rounds.
-/

namespace Verif.AnyRead
open PluralOperands

/-- operands.rs:73-122 (`TryFrom<&str>`), with `read` for `f64::from_str` at :83.  `decStr.length` counts characters where `str::len`
counts bytes: where they differ, the text after the point is no `u64`, and the conversion has already failed. -/
def tryFromStr (read : Str → Option Flt) (input : Str) : Except OpsErr PluralOperands :=
  let absStr := absStr input
  match read absStr with
  | none => .error .incorrectNumber
  | some absoluteValue =>
    match splitPoint absStr with
    | some (intStr, decStr) =>
      match parseUnsigned 64 intStr with
      | none => .error .couldNotConvert
      | some integerDigits =>
        let backtrace := trimEndZeros decStr
        match parseUnsigned 64 decStr with
        | none => .error .couldNotConvert
        | some fractionDigits0 =>
          .ok { n := absoluteValue
                i := integerDigits
                v := decStr.length
                w := backtrace.length
                f := fractionDigits0
                t := (parseUnsigned 64 backtrace).getD 0 }
    | none =>
      .ok { n := absoluteValue, i := absoluteValue.toU64 b64, v := 0, w := 0, f := 0, t := 0 }

end Verif.AnyRead
