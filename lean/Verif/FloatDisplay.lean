import Verif.Operands

/-!
# `to_string` of a float, and `PluralOperands::try_from` on floats

intl_pluralrules/src/operands.rs:168-181 converts an `f32` or `f64` through its `Display` text.  `Display` is in std and not in
/repo; its result is documented: the shortest decimal that reads back as the same float, the nearest to the float among those,
never with an exponent.  The model is a search for that decimal, where std uses a faster algorithm (Grisu with Dragon as fallback).
-/

namespace Verif.Flt

/-- The digits `d` such that `d * 10^e` reads back as the float of magnitude `m`: the one below the value, the one above, or
the nearer of the two if both do (in the middle, the one above). -/
def digitsAt (F : Fmt) (m : Nat) (e : Int) : Option Nat :=
  -- the value is a / b in units of 10^e
  let a := if 0 ≤ e then m else m * 10 ^ (-e).toNat
  let b := if 0 ≤ e then 2 ^ F.scale * 10 ^ e.toNat else 2 ^ F.scale
  let d := a / b
  let down := decide (ofDec F false d e = fin false m)
  let up := decide (ofDec F false (d + 1) e = fin false m)
  if up && (!down || decide (b ≤ 2 * (a % b))) then some (d + 1)
  else if down then some d
  else none

/-- The digits for the largest exponent below `k - scale - 20` with such digits, and that exponent. -/
def shortest (F : Fmt) (m : Nat) : Nat → Option (Nat × Int)
  | 0 => none
  | k + 1 =>
    match digitsAt F m (k - (F.scale + 20 : Nat)) with
    | some d => some (d, k - (F.scale + 20 : Nat))
    | none => shortest F m k

/-- `d * 10^e` without exponent. -/
def decimalText (d : Nat) (e : Int) : Str :=
  let s := showNat d
  if 0 ≤ e then s ++ List.replicate e.toNat '0'
  else
    let j := (-e).toNat
    if j < s.length then s.take (s.length - j) ++ '.' :: s.drop (s.length - j)
    else c!"0." ++ List.replicate (j - s.length) '0' ++ s

/-- `Display` of the finite float of magnitude `m`; the search covers all exponents that can occur (`2^maxExp ≤ 10^(maxExp / 3 + 1)`). -/
def displayMag (F : Fmt) (m : Nat) : Str :=
  if m = 0 then c!"0"
  else match shortest F m (F.maxExp / 3 + F.scale + 21) with
    | some (d, e) => decimalText d e
    | none => []

/-- `to_string` of a float; operands.rs:173. -/
def display (F : Fmt) : Flt → Str
  | nan => c!"NaN"
  | inf neg => if neg then c!"-inf" else c!"inf"
  | fin neg m => if neg then '-' :: displayMag F m else displayMag F m

end Verif.Flt

namespace Verif.PluralOperands

/-- operands.rs:168-181 (`impl_convert_type!`) for `f32` and `f64`: the text of a float of format `F`, read as `f64`. -/
def tryFromFloat (F : Fmt) (input : Flt) : Except OpsErr PluralOperands := tryFromStr (Flt.display F input)

end Verif.PluralOperands
