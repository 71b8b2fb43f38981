import Verif.IeeeSpec
import Verif.Operands
import Verif.GenPr
import Mathlib.Data.List.Forall2

/-!
# Specification: operands of a number, and the code of a condition

What the property theorems about generated code are stated with.
-/

namespace Verif.Spec
open Verif Uts35 Rust

/-- The digits of a decimal as one number, without the point. -/
def allDigits (d : Dec) : Nat := d.i * 10 ^ d.v + d.f

/-- `x` is a finite positive `f64` that is at least as near to `v` as every other. -/
def NearestTo (x : Flt) (v : ℚ) : Prop := ∃ m, x = .fin false m ∧ Representable b64 m ∧
  ∀ m', Representable b64 m' → |(m : ℚ) / 2 ^ 1074 - v| ≤ |(m' : ℚ) / 2 ^ 1074 - v|

/-- `po` are the UTS #35 operands of `d`, with `n` rounded to an `f64` as IEEE 754 says. -/
structure OperandsOf (po : PluralOperands) (d : Dec) : Prop where
  i : po.i = d.i
  v : po.v = d.v
  w : po.w = d.w
  f : po.f = d.f
  t : po.t = d.t
  n : Ieee b64 d.value po.n

/-- The decimals for which `n` as an `f64` is still equal to, below or above exactly the same integers below 2^53: those
with few digits, and those above 2^53. -/
def Fits (d : Dec) : Prop := allDigits d < 2 ^ 53 ∧ d.v ≤ 300 ∨ 2 ^ 53 ≤ d.i ∧ d.i < 2 ^ 64

/-- The code generated for the condition, read as a Rust expression, is `e`. -/
def Code (c : Condition) (e : RExpr) : Prop := ∃ ts, GenPr.genPr c = some ts ∧ parseExpr ts = some e

/-- The operators `in`, `is`, `=`. -/
def Positive (o : Operator) : Prop := o = .In ∨ o = .Is ∨ o = .EQ
/-- The operators `not in`, `is not`, `!=`. -/
def Negative (o : Operator) : Prop := o = .NotIn ∨ o = .IsNot ∨ o = .NotEQ
/-- The operators `within`, `not within`. -/
def IsWithin (o : Operator) : Prop := o = .Within ∨ o = .NotWithin

/-- The condition consists of and-conditions of relations with a property, none of these lists being empty. -/
def AllRelations (Q : Relation → Prop) (c : Condition) : Prop := c ≠ [] ∧ ∀ a ∈ c, a ≠ [] ∧ ∀ r ∈ a, Q r

/-- The list of the relation is not empty, and has a range if the operator is within. -/
def Listed (r : Relation) : Prop :=
  r.rangeList ≠ [] ∧ (IsWithin r.operator → ∃ lo hi, RangeListItem.range lo hi ∈ r.rangeList)

/-! ## Decimal text -/

/-- The character of a digit. -/
def digitChar (d : Fin 10) : Char := Char.ofNat (48 + d.val)

/-- Digits as text. -/
def digitText (l : List (Fin 10)) : Str := l.map digitChar

/-- `ip.fp` -/
def decText (ip fp : List (Fin 10)) : Str := digitText ip ++ '.' :: digitText fp

/-- The decimal that `ip.fp` (or `ip`, without fraction digits) writes. -/
def decOf (ip fp : List (Fin 10)) : Dec := ⟨digitsNum ip, fp⟩

/-- The exponent of a float literal: nothing, or `e` or `E`, an optional sign, and digits. -/
def ExponentText (x : Str) : Prop := x = [] ∨ ∃ c sign l, (c = 'e' ∨ c = 'E') ∧ (sign = [] ∨ sign = ['+'] ∨ sign = ['-']) ∧
  l ≠ [] ∧ x = c :: sign ++ digitText l

/-- A lower-case word, each letter in either case. -/
def Spells (s w : Str) : Prop := List.Forall₂ (fun c l : Char => c = l ∨ c.toNat + 32 = l.toNat) s w

/-- A float literal without sign and point: digits and an exponent, or a special word. -/
def UnsignedPointFree (s : Str) : Prop := (∃ ip x, ip ≠ [] ∧ ExponentText x ∧ s = digitText ip ++ x) ∨
  Spells s c!"inf" ∨ Spells s c!"infinity" ∨ Spells s c!"nan"

/-- A float literal without point. -/
def PointFree (s : Str) : Prop := ∃ sign body, (sign = [] ∨ sign = ['+'] ∨ sign = ['-']) ∧ s = sign ++ body ∧
  UnsignedPointFree body

/-- Digits, a point and digits, both below 2^64, after an optional plus sign. -/
def WithPoint (s : Str) : Prop := ∃ sign ip fp, (sign = [] ∨ sign = ['+']) ∧ ip ≠ [] ∧ fp ≠ [] ∧
  digitsNum ip < 2 ^ 64 ∧ digitsNum fp < 2 ^ 64 ∧ s = sign ++ decText ip fp

/-- The float with the other sign. -/
def negated : Flt → Flt
  | .nan => .nan
  | .inf s => .inf !s
  | .fin s m => .fin (!s) m

/-- What the operands of one number have to do with each other. -/
structure Consistent (po : PluralOperands) : Prop where
  w_le_v : po.w ≤ po.v
  f_eq : po.f = po.t * 10 ^ (po.v - po.w)
  f_lt : po.f < 10 ^ po.v
  t_lt : po.t < 10 ^ po.w
  t_zero : po.t = 0 ↔ po.w = 0
  t_mod : po.t ≠ 0 → po.t % 10 ≠ 0
  i_u64 : po.i < 2 ^ 64
  f_u64 : po.f < 2 ^ 64
  t_u64 : po.t < 2 ^ 64

end Verif.Spec
