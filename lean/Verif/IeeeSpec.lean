import Verif.F64
import Verif.Uts35

/-!
# Specification: rounding of IEEE 754

What `f64::from_str` and the casts from integers to floats are documented to do: the nearest float, ties to even.  Separate from the
arithmetic of the model in `Verif.F64`, of which only the types of formats and floats are used.
-/

namespace Verif.Spec
open Verif

/-- The magnitudes that a format has: a significand of `prec` bits times a power of two. -/
def Representable (F : Fmt) (m : Nat) : Prop := ∃ c e, c < 2 ^ F.prec ∧ m = c * 2 ^ e

/-- The floats of a format: zeros, subnormal and normal numbers, infinities and NaN. -/
def IsFloat (F : Fmt) : Flt → Prop
  | .nan => True
  | .inf _ => True
  | .fin _ m => Representable F m ∧ m < 2 ^ (F.maxExp + F.scale)

/-- The last digit of the significand is even: `prec` digits, or fewer at the lowest exponent. -/
def EvenLast (F : Fmt) (m : Nat) : Prop := ∃ c e, c < 2 ^ F.prec ∧ (e = 0 ∨ 2 ^ (F.prec - 1) ≤ c) ∧ m = c * 2 ^ e ∧ 2 ∣ c

/-- How far a magnitude is from a number. -/
def distance (F : Fmt) (m : Nat) (y : ℚ) : ℚ := |(m : ℚ) / 2 ^ F.scale - y|

/-- IEEE 754-2008, 4.3.1, roundTiesToEven, for numbers that are not negative: infinity from half a unit above the largest number on;
else the nearest number, and if two are nearest the one with an even last digit. -/
inductive Ieee (F : Fmt) (y : ℚ) : Flt → Prop
  | overflow : 2 ^ F.maxExp - 2 ^ F.maxExp / 2 ^ (F.prec + 1) ≤ y → Ieee F y (.inf false)
  | finite (m : Nat) : y < 2 ^ F.maxExp - 2 ^ F.maxExp / 2 ^ (F.prec + 1) → Representable F m →
      (∀ m', Representable F m' → distance F m y ≤ distance F m' y) →
      (∀ m', Representable F m' → m' ≠ m → distance F m' y = distance F m y → EvenLast F m) → Ieee F y (.fin false m)

end Verif.Spec
