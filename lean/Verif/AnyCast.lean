import Verif.FloatDisplay

/-!
# The conversion of texts and floats with any cast of floats

intl_pluralrules/src/operands.rs:73-122 and 168-181 over any function in the place of `absolute_value as u64` at :106.  Before Rust 1.45
this cast is undefined behaviour if the truncated value is no `u64`.
-/

namespace Verif.AnyCast
open PluralOperands

/-- operands.rs:73-122 (`TryFrom<&str>`), with `cast` for `as u64` at :106. -/
def tryFromStr (cast : Flt → Nat) (input : Str) : Except OpsErr PluralOperands :=
  let absStr := absStr input
  match Flt.fromStr b64 absStr with
  | none => .error .incorrectNumber
  | some absoluteValue =>
    match splitPoint absStr with
    | some (intStr, decStr) =>
      match parseUnsigned 64 intStr with
      | none => .error .couldNotConvert
      | some integerDigits =>
        let backtrace := trimEndZeros decStr
        match parseUnsigned 64 decStr with
        | none => .error .couldNotConvert
        | some fractionDigits0 =>
          .ok { n := absoluteValue
                i := integerDigits
                v := decStr.length
                w := backtrace.length
                f := fractionDigits0
                t := (parseUnsigned 64 backtrace).getD 0 }
    | none =>
      .ok { n := absoluteValue, i := cast absoluteValue, v := 0, w := 0, f := 0, t := 0 }

/-- operands.rs:168-181 for `f32` and `f64`. -/
def tryFromFloat (cast : Flt → Nat) (F : Fmt) (input : Flt) : Except OpsErr PluralOperands := tryFromStr cast (Flt.display F input)

end Verif.AnyCast
