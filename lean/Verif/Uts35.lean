import Verif.Ast
import Mathlib.Data.Rat.Floor

/-!
# Specification: UTS #35 plural operands and rule semantics

https://unicode.org/reports/tr35/tr35-numbers.html#Operands and #Relations.  Nothing here is code of /repo; of the
modelled code only the syntax of rules (`Verif.Ast`) is used.
-/

namespace Verif.Uts35
open Verif

/-- A decimal number as written, without sign: the integer part and the visible fraction digits. -/
structure Dec where
  int : Nat
  frac : List (Fin 10)
  deriving DecidableEq, Repr

/-- The number that a list of digits denotes. -/
def digitsNum : List (Fin 10) → Nat
  | [] => 0
  | d :: r => d.val * 10 ^ r.length + digitsNum r

/-- The digits without trailing zeros. -/
def dropTrailingZeros : List (Fin 10) → List (Fin 10)
  | [] => []
  | d :: r => if (d :: r).all (· == 0) then [] else d :: dropTrailingZeros r

namespace Dec

/-- The value, a rational number. -/
def value (d : Dec) : ℚ := d.int + (digitsNum d.frac : ℚ) / 10 ^ d.frac.length

/-- Operand `n`: the absolute value. -/
def n (d : Dec) : ℚ := d.value
/-- Operand `i`: the integer digits. -/
def i (d : Dec) : Nat := d.int
/-- Operand `v`: the number of visible fraction digits, with trailing zeros. -/
def v (d : Dec) : Nat := d.frac.length
/-- Operand `w`: the number of visible fraction digits, without trailing zeros. -/
def w (d : Dec) : Nat := (dropTrailingZeros d.frac).length
/-- Operand `f`: the visible fraction digits, with trailing zeros, as an integer. -/
def f (d : Dec) : Nat := digitsNum d.frac
/-- Operand `t`: the visible fraction digits, without trailing zeros, as an integer. -/
def t (d : Dec) : Nat := digitsNum (dropTrailingZeros d.frac)

/-- The value of an operand. -/
def operand (d : Dec) : Operand → ℚ
  | .N => d.n
  | .I => d.i
  | .V => d.v
  | .W => d.w
  | .F => d.f
  | .T => d.t

end Dec

/-- Remainder of a rational number by a positive integer. -/
def qmod (x : ℚ) (m : Nat) : ℚ := x - m * ⌊x / m⌋

/-- The left side of a relation. -/
def exprValue (d : Dec) (e : Expression) : ℚ :=
  match e.modulus with
  | none => d.operand e.operand
  | some m => qmod (d.operand e.operand) m

/-- `x = k`, or `x` one of the integers `lo, lo+1, …, hi`. -/
def ItemIn (x : ℚ) : RangeListItem → Prop
  | .value k => x = k
  | .range lo hi => ∃ k : Nat, lo ≤ k ∧ k ≤ hi ∧ x = k

/-- The same for `within`, whose ranges contain all numbers in between. -/
def ItemWithin (x : ℚ) : RangeListItem → Prop
  | .value k => x = k
  | .range lo hi => (lo : ℚ) ≤ x ∧ x ≤ hi

/-- A relation holds of a number. -/
def RelationHolds (d : Dec) (r : Relation) : Prop :=
  match r.operator with
  | .In | .Is | .EQ => ∃ item ∈ r.rangeList, ItemIn (exprValue d r.expression) item
  | .NotIn | .IsNot | .NotEQ => ¬ ∃ item ∈ r.rangeList, ItemIn (exprValue d r.expression) item
  | .Within => ∃ item ∈ r.rangeList, ItemWithin (exprValue d r.expression) item
  | .NotWithin => ¬ ∃ item ∈ r.rangeList, ItemWithin (exprValue d r.expression) item

/-- A condition holds: all relations of one of its and-conditions hold. -/
def Holds (d : Dec) (c : Condition) : Prop := ∃ a ∈ c, ∀ r ∈ a, RelationHolds d r

end Verif.Uts35
