import Verif.IeeeSpec
import Verif.Actual
import Verif.Operands
import Mathlib.Order.WithBot

/-!
# Specification: what the generated code tests, on operands

`Verif.Actual` says what the code of a rule tests on a number with a decimal expansion.  `PluralOperands` has public fields
(intl_pluralrules/src/operands.rs:57-71), so that `select` may be called with any operands, also with some that belong to no number;
and of the texts that have operands, some write numbers with too many digits, an infinity or NaN.  Here are the same tests as
statements about the fields.
-/

namespace Verif.OnOperands
open Verif Uts35 Spec

/-- The number that a float of `f64` is: a rational number, an infinity, or none for NaN. -/
def number : Flt → Option (WithBot (WithTop ℚ))
  | .nan => none
  | .inf true => some ⊥
  | .inf false => some ((⊤ : WithTop ℚ) : WithBot (WithTop ℚ))
  | .fin neg m => some (((if neg then -((m : ℚ) / 2 ^ 1074) else (m : ℚ) / 2 ^ 1074 : ℚ) : WithTop ℚ) : WithBot (WithTop ℚ))

/-- The same number. -/
def Same (x y : Flt) : Prop := ∃ a, number x = some a ∧ number y = some a

/-- Two numbers, and the first is at most the second. -/
def AtMost (x y : Flt) : Prop := ∃ a b, number x = some a ∧ number y = some b ∧ a ≤ b

/-- Two numbers, and the first is less than the second. -/
def Less (x y : Flt) : Prop := ∃ a b, number x = some a ∧ number y = some b ∧ a < b

/-- The integer that the code looks at: `i` in the place of `n`. -/
def look (po : PluralOperands) (e : Expression) : Nat :=
  let x := match e.operand with
    | .N => po.i
    | .I => po.i
    | .V => po.v
    | .W => po.w
    | .F => po.f
    | .T => po.t
  match e.modulus with
  | none => x
  | some m => x % m

/-- `n` itself, compared as a float. -/
def Plain (e : Expression) : Prop := e.operand = .N ∧ e.modulus = none

/-- One value: `n` is compared with the float nearest to it, other operands as integers. -/
def Equals (po : PluralOperands) (e : Expression) (k : Nat) : Prop :=
  (Plain e → ∃ x, Ieee b64 k x ∧ Same po.n x) ∧ (¬ Plain e → look po e = k)

/-- One item of a positive relation. -/
def Accepts (po : PluralOperands) (e : Expression) : RangeListItem → Prop
  | .value k => Equals po e k
  | .range lo hi =>
    if e.operand = .N then lo ≤ po.i ∧ po.i ≤ hi ∧ (e.modulus = none → po.f = 0)
    else lo ≤ look po e ∧ look po e ≤ hi

/-- One item of a negated relation. -/
def Rejects (po : PluralOperands) (e : Expression) : RangeListItem → Prop
  | .value k => ¬ Equals po e k
  | .range lo hi =>
    if e.operand = .N then ¬ (lo ≤ po.i ∧ po.i ≤ hi) ∧ (e.modulus = none → po.f = 0)
    else ¬ (lo ≤ look po e ∧ look po e ≤ hi)

/-- The integer of a `within`: with a modulus it is always about `i`. -/
def withinLook (po : PluralOperands) (e : Expression) : Nat :=
  match e.modulus with
  | none => look po e
  | some m => po.i % m

/-- One range of a `within`. -/
def Within (po : PluralOperands) (e : Expression) (lo hi : Nat) : Prop :=
  (Plain e → ∃ x y, Ieee b64 lo x ∧ Ieee b64 hi y ∧ AtMost x po.n ∧ AtMost po.n y) ∧
  (¬ Plain e → lo ≤ withinLook po e ∧ withinLook po e ≤ hi)

/-- One range of a `not within`. -/
def NotWithin (po : PluralOperands) (e : Expression) (lo hi : Nat) : Prop :=
  (Plain e → ∃ x y, Ieee b64 lo x ∧ Ieee b64 hi y ∧ Less po.n x ∧ Less y po.n) ∧
  (¬ Plain e → withinLook po e < lo ∧ hi < withinLook po e)

/-- The code of a relation is true on operands. -/
def RelationHolds (po : PluralOperands) (r : Relation) : Prop :=
  match r.operator with
  | .In | .Is | .EQ => ∃ item ∈ r.rangeList, Accepts po r.expression item
  | .NotIn | .IsNot | .NotEQ => ∀ item ∈ r.rangeList, Rejects po r.expression item
  | .Within => ∃ lo hi, Actual.FirstRange r.rangeList lo hi ∧ Within po r.expression lo hi
  | .NotWithin => ∃ lo hi, Actual.FirstRange r.rangeList lo hi ∧ NotWithin po r.expression lo hi

/-- The code of a condition is true on operands. -/
def Holds (po : PluralOperands) (c : Condition) : Prop := ∃ a ∈ c, ∀ r ∈ a, RelationHolds po r

end Verif.OnOperands
